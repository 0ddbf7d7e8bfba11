import Verif.Props.DdsDebug
/-!
# C26, C81 and C87 between builds that treat overflow differently

`C26_dds_roundtrip` and its companions ask that a program with overflow checks reads only what a program with overflow checks
wrote.  Here nothing is asked, and the result is exact: what is written is always restored, unless the reading program checks
for overflow and a mip level has 4 GiB or more; then it panics.
-/

namespace Dlt.Props

open Dlt.FileFormats Dlt.Dds Dlt.Embed

variable {σ E : Type}

/-- The platform with the checks switched off. -/
def unchecked (p : Platform) : Platform := { p with overflowChecks := false }

theorem parse_unchecked (p : Platform) (b : Buf) (h : ¬ LevelOverflows p b) :
    parseIgnoreMagic p b = parseIgnoreMagic (unchecked p) b := by
  rw [parseIgnoreMagic_spec, parseIgnoreMagic_spec, if_neg (show ¬ (p.overflowChecks = true ∧ LevelTooLarge b) from h),
    if_neg (show ¬ ((unchecked p).overflowChecks = true ∧ LevelTooLarge b) from fun h => nomatch h.1)]

/-- What the unchecked build restores the checked build restores too, unless a level overflows. -/
theorem untransform_checked {p : Platform} (hu : 2 ^ 32 - 1 ≤ p.env.usizeMax) {t out r : Buf}
    (h : untransform (unchecked p) t out = some (r, .ok ())) (hl : ¬ LevelOverflows p t) :
    untransform p t out = some (r, .ok ()) := by
  obtain ⟨info, hp, h1, h2, h3, _⟩ := untransform_ok (p := unchecked p) hu h
  rw [← h, untransform_eq (unchecked p) t out hp rfl rfl h1 h3 h2,
    untransform_eq p t out ((parse_unchecked p t hl).trans hp) rfl rfl h1 h3 h2]
  rfl

/-- What the unchecked build transforms the checked build transforms to the same, unless a level overflows. -/
theorem transform_checked {p : Platform} (hu : 2 ^ 32 - 1 ≤ p.env.usizeMax) {dbg : E → String} {bundle : Bundle σ E}
    {input output o : Buf} {st st' : σ}
    (h : transformBundle (unchecked p) dbg bundle input output st = some (o, st', .ok ())) (hl : ¬ LevelOverflows p input) :
    transformBundle p dbg bundle input output st = some (o, st', .ok ()) := by
  obtain ⟨info, f, tex, w, hp, hi, ha, ho, _⟩ := transform_ok (p := unchecked p) hu h
  have hp' : parseDds p input = some (some info) := by
    rw [parseDds_eq, parse_unchecked p input hl, ← parseDds_eq, hp]
  rw [← h, transform_eq (unchecked p) dbg bundle input output st hp rfl rfl hi ho ha,
    transform_eq p dbg bundle input output st hp' rfl rfl hi ho ha]
  rfl

/-- The texture sizes of a file and its transformed form are the same. -/
theorem transformed_parse {p : Platform} (hu : 2 ^ 32 - 1 ≤ p.env.usizeMax) {dbg : E → String} {bundle : Bundle σ E}
    {input output o : Buf} {st st' : σ} (hol : o.length = input.length)
    (h : transformBundle p dbg bundle input output st = some (o, st', .ok ())) (p' : Platform) :
    LevelOverflows p' o ↔ LevelOverflows p' input := by
  obtain ⟨info, f, tex, w, hp, hi, ha, _, hf, hd, hd1, _, rfl⟩ := transform_ok hu h
  have hp2 := (parseDds_some hp).1
  have hle := parse_offset_le hp2
  have hw4 : (to32 .little w.word).length = 4 := to32_length _ _
  have hhead := assemble_header (magic := to32 .little w.word) (input := input) (tex := tex)
    (rest := if info.dataOffset.toNat + info.dataLength.toNat < input.length then
          input.drop (info.dataOffset.toNat + info.dataLength.toNat)
        else output.drop (info.dataOffset.toNat + info.dataLength.toNat)) (off := info.dataOffset.toNat) hw4 (by omega)
  generalize assemble _ _ _ _ _ = o at *
  have hin : 128 ≤ input.length ∧ (IsDx10 input → 148 ≤ input.length) := by
    rw [parseIgnoreMagic_spec] at hp2
    split at hp2
    · assumption
    · cases hp2
  have hpo := parse_same_header hp2 hol hhead
  have hio : 128 ≤ o.length ∧ (IsDx10 o → 148 ≤ o.length) := by
    rw [parseIgnoreMagic_spec] at hpo
    split at hpo
    · assumption
    · cases hpo
  have e1 : reported input = info := (reported_of_parse hp2).symm
  have e2 : reported o = info := (reported_of_parse hpo).symm
  have key : parseIgnoreMagic p' input = some (some info) ↔ parseIgnoreMagic p' o = some (some info) :=
    ⟨fun h => parse_same_header h hol hhead, fun h => parse_same_header h hol.symm hhead.symm⟩
  rw [parseIgnoreMagic_spec, parseIgnoreMagic_spec, if_pos hin, if_pos hio, e1, e2] at key
  change (p'.overflowChecks = true ∧ LevelTooLarge o) ↔ (p'.overflowChecks = true ∧ LevelTooLarge input)
  by_cases h1 : p'.overflowChecks = true ∧ LevelTooLarge o <;>
    by_cases h2 : p'.overflowChecks = true ∧ LevelTooLarge input <;> simp_all

open Classical in
/-- **C26**, exact for any two builds: what was transformed is restored, unless the second program checks for overflow and a
mip level of the file has 4 GiB or more; then it panics. -/
theorem C26_dds_roundtrip_exact (p p' : Platform) (hm : p.m.endian = p'.m.endian) (hu : 2 ^ 32 - 1 ≤ p.env.usizeMax)
    (hu' : 2 ^ 32 - 1 ≤ p'.env.usizeMax) (dbg : E → String) (bundle : Bundle σ E) (input output o : Buf) (st st' : σ)
    (hin : input.length ≤ p'.env.usizeMax) (hlen : output.length = input.length)
    (h : transformBundle p dbg bundle input output st = some (o, st', .ok ())) (buf : Buf) (hb : buf.length = input.length) :
    o.length = input.length ∧
      untransform p' o buf = if LevelOverflows p' input then none else some (input, .ok ()) := by
  obtain ⟨hol, hback⟩ := C26_dds_roundtrip p (unchecked p') hm (fun h => nomatch h) hu dbg bundle input output o st st' hin
    hlen h buf hb
  refine ⟨hol, ?_⟩
  have hlv := transformed_parse hu hol h p'
  split
  · rename_i hx
    obtain ⟨info, hp, h1, _, h3, _⟩ := untransform_ok (p := unchecked p') hu' hback
    refine (C80_untransform_panics p' hu' o buf).2 ⟨by omega, ?_, .inl (hlv.2 hx)⟩
    have hle := parse_offset_le hp
    rw [← reported_offset, ← reported_of_parse hp]
    omega
  · rename_i hx
    exact untransform_checked hu' hback (fun h => hx (hlv.1 h))

open Classical in
/-- **C81**, first half, exact for any two builds. -/
theorem C81_restored_transforms_back_exact (p p' : Platform) (hm : p.m.endian = p'.m.endian)
    (hu : 2 ^ 32 - 1 ≤ p.env.usizeMax) (hu' : 2 ^ 32 - 1 ≤ p'.env.usizeMax)
    (dbg : E → String) (bundle : Bundle σ E) (t out r : Buf) (hlen : out.length = t.length)
    (hin : t.length ≤ p'.env.usizeMax) (h : untransform p t out = some (r, .ok ())) (hfit : TagFits t)
    (hset : SetAs bundle t) (st : σ) (out' : Buf) (ho' : out'.length = t.length) :
    ∃ o, transformBundle p' dbg bundle r out' st = (if LevelOverflows p' r then none else some (o, st, .ok ())) ∧
      o.drop 4 = t.drop 4 ∧ num o 0 = num t 0 % 512 ∧ (o = t ↔ num t 0 < 512) := by
  obtain ⟨o, h1, h2, h3, h4⟩ := C81_restored_transforms_back p (unchecked p') hm (fun h => nomatch h) hu dbg bundle t out r hlen
    hin h hfit hset st out' ho'
  refine ⟨o, ?_, h2, h3, h4⟩
  obtain ⟨info, f, tex, w, hp, hi, ha, ho, _⟩ := transform_ok (p := unchecked p') hu' h1
  split
  · rename_i hx
    refine (C80_transform_panics p' hu' dbg bundle r out' st).2 ⟨ho, ?_, .inl hx⟩
    rw [parseDds_spec] at hp
    split at hp
    · assumption
    · cases hp
  · rename_i hx
    exact transform_checked hu' h1 hx

open Classical in
/-- **C87**, round trip between any two builds: a debug build restores what any build has transformed, unless a mip level
overflows and the build checks for that, or the texture is empty and was transformed with split endpoints. -/
theorem C87_roundtrip_exact (p p' : Platform) (hm : p.m.endian = p'.m.endian) (hu : 2 ^ 32 - 1 ≤ p.env.usizeMax)
    (hu' : 2 ^ 32 - 1 ≤ p'.env.usizeMax) (dbg : E → String) (bundle : Bundle σ E) (input output o : Buf) (st st' : σ)
    (hin : input.length ≤ p'.env.usizeMax) (hlen : output.length = input.length)
    (h : transformBundle p dbg bundle input output st = some (o, st', .ok ()))
    (buf : Buf) (hb : buf.length = input.length) :
    untransformDebug p' o buf =
      if LevelOverflows p' input ∨ (reportedSize input = 0 ∧ TaggedBc1Split o ∧ HasSplitKernel p'.m) then none
      else some (input, .ok ()) := by
  obtain ⟨hol, hback⟩ := C26_dds_roundtrip_exact p p' hm hu hu' dbg bundle input output o st st' hin hlen h buf hb
  have hdbg := C87_roundtrip p (unchecked p') hm (fun h => nomatch h) hu hu' dbg bundle input output o st st' hin hlen h buf hb
  rw [C87_untransform p' hu', hback]
  rw [C87_untransform (unchecked p') hu'] at hdbg
  rw [(C26_dds_roundtrip p (unchecked p') hm (fun h => nomatch h) hu dbg bundle input output o st st' hin hlen h buf hb).2]
    at hdbg
  change (if o.length ≤ buf.length ∧ headerSize o ≤ o.length ∧ reportedSize o = 0 ∧ TaggedBc1Split o ∧ HasSplitKernel p'.m
    then none else some (input, (.ok () : Except TransformError Unit))) =
    if reportedSize input = 0 ∧ TaggedBc1Split o ∧ HasSplitKernel p'.m then none else some (input, .ok ()) at hdbg
  by_cases h1 : LevelOverflows p' input
  · rw [if_pos h1, ite_self, if_pos (Or.inl h1)]
  · rw [if_neg h1, hdbg]
    by_cases h2 : reportedSize input = 0 ∧ TaggedBc1Split o ∧ HasSplitKernel p'.m
    · rw [if_pos h2, if_pos (Or.inr h2)]
    · rw [if_neg h2, if_neg (not_or.2 ⟨h1, h2⟩)]

/-! ## A concrete file -/

/-- The 8 GiB texture of `C32_size_wraps`: a build without overflow checks transforms the file (its texture is taken to be
empty) and restores it, a build with them cannot restore it. -/
theorem C26_overflow_checks_matter :
    ∃ o, transformBundle somePlatform (fun _ : Unit => "") (Bundle.defaultAll (σ := Unit)) hugeFile
        (List.replicate hugeFile.length 0) () = some (o, (), .ok ()) ∧
      untransform somePlatform o (List.replicate hugeFile.length 0) = some (hugeFile, .ok ()) ∧
      untransform { somePlatform with overflowChecks := true } o (List.replicate hugeFile.length 0) = none := by
  have hrun : (match transformBundle somePlatform (fun _ : Unit => "") (Bundle.defaultAll (σ := Unit)) hugeFile
        (List.replicate hugeFile.length 0) () with
      | some (_, _, .ok ()) => true
      | _ => false) = true := by decide +kernel
  rcases ht : transformBundle somePlatform (fun _ : Unit => "") (Bundle.defaultAll (σ := Unit)) hugeFile
        (List.replicate hugeFile.length 0) () with _ | ⟨o, u, _ | v⟩
  · rw [ht] at hrun; cases hrun
  · rw [ht] at hrun; cases hrun
  · have hl : hugeFile.length = 128 := by decide +kernel
    have hov : ∀ p : Platform, p.overflowChecks = true → LevelOverflows p hugeFile := fun p hp =>
      ⟨hp, 0, by decide +kernel, by decide +kernel⟩
    refine ⟨o, rfl, ?_, ?_⟩
    · rw [(C26_dds_roundtrip_exact somePlatform somePlatform rfl (by decide) (by decide) _ _ hugeFile _ o () u
        (by rw [hl]; decide) (by simp) ht _ (by simp)).2, if_neg (fun h => nomatch h.1)]
    · rw [(C26_dds_roundtrip_exact somePlatform { somePlatform with overflowChecks := true } rfl (by decide) (by decide) _ _
        hugeFile _ o () u (by rw [hl]; decide) (by simp) ht _ (by simp)).2, if_pos (hov _ rfl)]

end Dlt.Props
