import Verif.Props.DebugRoundtrip
/-!
# C67: block extraction and format queries on files
-/

namespace Dlt.Props

open Dlt.FileFormats Dlt.FileIo Dlt.FileIo.Prog Dlt.Cli Dlt.Dds Dlt.DebugIo
open Dlt.Embed (TransformFormat)

variable {σ : Type}

/-! ## The names of the filters -/

/-- The documented name of each filter. -/
def filterName : Filter → String
  | .bc1 => "bc1"
  | .bc2 => "bc2"
  | .bc3 => "bc3"
  | .bc4 => "bc4"
  | .bc5 => "bc5"
  | .bc6h => "bc6h"
  | .bc7 => "bc7"
  | .rgba8888 => "rgba8888"
  | .bgra8888 => "bgra8888"
  | .bgr888 => "bgr888"
  | .all => "all"

/-- **C67** (names): a filter is recognised exactly by its name, in any case of letters. -/
theorem C67_filter_names (lower : String → String) (s : String) (f : Filter) :
    filterFromStr lower s = some f ↔ lower s = filterName f := by
  unfold filterFromStr
  constructor
  · intro h
    split at h <;> first | (cases h; assumption) | exact nomatch h
  · intro h
    rw [h]
    cases f <;> rfl

/-! ## Several handlers -/

/-- What one handler does with the blocks it finds; `none` if it does not handle the file. -/
def answerOf (data : Buf) (ext : Option String) (filter : Filter) (h : DebugIo.Handler σ) (st : σ) :
    Option (σ × Option (Except TransformError (Option (Buf × TransformFormat)))) :=
  (h.canHandle data ext st).bind fun (st, yes) =>
    if yes then (h.extractBlocks data filter st).map fun (st, r) => (st, some r) else some (st, none)

/-- **C67** (extraction): handlers that decline are passed over in order; the first one that accepts decides alone, whatever
the others would say; its blocks go to the callback, once, and no blocks or no handler is the error `NoSupportedHandler`. -/
theorem C67_extraction (os : Os) (w : World σ) (data : Buf) (ext : Option String) (filter : Filter)
    (test : Buf → TransformFormat → Prog σ (Except TransformError Unit)) :
    Prog.run os (extractLoop data ext filter test []) w = (w, some (.error (.transform .noSupportedHandler))) ∧
    (∀ h hs st, answerOf data ext filter h w.st = some (st, none) →
      Prog.run os (extractLoop data ext filter test (h :: hs)) w =
        Prog.run os (extractLoop data ext filter test hs) { w with st }) ∧
    (∀ h hs st, answerOf data ext filter h w.st = some (st, some (.ok none)) →
      Prog.run os (extractLoop data ext filter test (h :: hs)) w =
        ({ w with st }, some (.error (.transform .noSupportedHandler)))) ∧
    (∀ h hs st e, answerOf data ext filter h w.st = some (st, some (.error e)) →
      Prog.run os (extractLoop data ext filter test (h :: hs)) w = ({ w with st }, some (.error (.transform e)))) ∧
    (∀ h hs st blocks f, answerOf data ext filter h w.st = some (st, some (.ok (some (blocks, f)))) →
      Prog.run os (extractLoop data ext filter test (h :: hs)) w =
        match Prog.run os (test blocks f) { w with st } with
        | (w, r) => (w, r.map fun r => r.mapError .transform)) := by
  have hb : ∀ {α β : Type} (x : Prog σ α) (f : α → β) (w : World σ), Prog.run os (x.bind fun a => .ret (f a)) w =
      match Prog.run os x w with | (w, r) => (w, r.map f) := by
    intro α β x f
    induction x with
    | ret a => exact fun _ => rfl
    | panic => exact fun _ => rfl
    | op s k ih =>
      intro w
      change Prog.run os (.op s fun b => (k b).bind fun a => .ret (f a)) w = _
      rw [run_op, run_op]
      rcases exec os s w with ⟨w1, _ | b⟩
      · rfl
      · exact ih b w1
  have key : ∀ h hs, Prog.run os (extractLoop data ext filter test (h :: hs)) w =
      match answerOf data ext filter h w.st with
      | none => Prog.run os (extractLoop data ext filter test (h :: hs)) w
      | some (st, none) => Prog.run os (extractLoop data ext filter test hs) { w with st }
      | some (st, some (.ok none)) => ({ w with st }, some (.error (.transform .noSupportedHandler)))
      | some (st, some (.error e)) => ({ w with st }, some (.error (.transform e)))
      | some (st, some (.ok (some (blocks, f)))) => match Prog.run os (test blocks f) { w with st } with
        | (w, r) => (w, r.map fun r => r.mapError .transform) := by
    intro h hs
    rcases ha : answerOf data ext filter h w.st with _ | ⟨st, r⟩
    · rfl
    unfold answerOf at ha
    rcases hc : h.canHandle data ext w.st with _ | ⟨st1, yes⟩
    · rw [hc] at ha; exact nomatch ha
    rw [hc, Option.bind_some] at ha
    rw [extractLoop, run_op]
    simp only [exec, hc]
    cases yes with
    | false =>
      simp only [Bool.false_eq_true, if_false, Option.some.injEq, Prod.mk.injEq] at ha
      rw [← ha.1, ← ha.2]
      rfl
    | true =>
      dsimp only at ha
      rw [if_pos rfl] at ha
      rcases he : h.extractBlocks data filter st1 with _ | ⟨st2, r'⟩
      · rw [he] at ha; exact nomatch ha
      rw [he, Option.map_some, Option.some.injEq, Prod.mk.injEq] at ha
      rw [← ha.1, ← ha.2, if_pos rfl, run_op]
      simp only [exec, he]
      rcases r' with e | _ | ⟨blocks, f⟩
      · rfl
      · rfl
      · exact hb _ _ _
  refine ⟨rfl, fun h hs st ha => ?_, fun h hs st ha => ?_, fun h hs st e ha => ?_, fun h hs st b f ha => ?_⟩ <;>
    (have := key h hs; rw [ha] at this; exact this)

/-! ## The analysis of a directory -/

/-- The format of the file at `p`, if it can be read, is not excluded by its extension and is a DDS file in a format with a
name.  Whether the texture is complete does not matter. -/
def formatOf (os : Os) (files : Path → Option Buf) (p : Path) : Option TransformFormat :=
  match files p with
  | none => none
  | some b =>
    if os.canOpen p = true ∧ os.canSize p = true ∧ os.canMap p b.length = true ∧
        (extractLowercaseExtension os p = none ∨ extractLowercaseExtension os p = some "dds") ∧ IsDds b then
      sameName (classify b)
    else none

theorem passes_all (g : TransformFormat) : Passes .all g := .inl rfl

/-- **C67** (detection): the detected format of a file. -/
theorem C67_detect (os : Os) (pl : Platform) (hw : Wide pl) (hc : pl.overflowChecks = false) (p : Path)
    (files : Path → Option Buf) (hl : ∀ b, files p = some b → b.length ≤ os.usizeMax) :
    Reads os files (detectFileFormat (σ := σ) os pl p) (formatOf os files p) := by
  by_cases hr : ∃ b, files p = some b ∧ os.canOpen p = true ∧ os.canSize p = true ∧ os.canMap p b.length = true
  swap
  · obtain ⟨e, he⟩ := reads_withInput_error (σ := σ) hl hr
      (fun data => formatLoop data (extractLowercaseExtension os p) .all (DebugIo.allHandlers pl))
    have : formatOf os files p = none := by
      unfold formatOf
      rcases hf : files p with _ | b
      · rfl
      · exact if_neg fun h => hr ⟨b, hf, h.1, h.2.1, h.2.2.1⟩
    rw [this]
    exact he.bind (.ret _)
  obtain ⟨b, hf, h1, h2, h3⟩ := hr
  have hfo : formatOf os files p = if (extractLowercaseExtension os p = none ∨ extractLowercaseExtension os p = some "dds") ∧
      IsDds b then sameName (classify b) else none := by
    unfold formatOf
    rw [hf]
    simp only [h1, h2, h3, true_and]
  rw [hfo]
  by_cases he : extractLowercaseExtension os p = none ∨ extractLowercaseExtension os p = some "dds"
  swap
  · rw [if_neg fun h => he h.1]
    rw [not_or] at he
    refine Reads.bind (reads_withInput_ok hf h1 h2 h3 (hl b hf) (a := .ok none) ?_) (.ret _)
    exact reads_call ((C33_detection pl b _).1 he.1 he.2) (.ret _)
  by_cases hd : IsDds b
  swap
  · rw [if_neg fun h => hd h.2]
    refine Reads.bind (reads_withInput_ok hf h1 h2 h3 (hl b hf) (a := .ok none) ?_) (.ret _)
    exact reads_call (((C33_detection pl b _).2 he).1 hd) (.ret _)
  rw [if_pos ⟨he, hd⟩]
  obtain ⟨info, hi⟩ := ((C33_parse pl b).2.1 hd).2.1 hc
  have h54 := (C54_extraction pl hw b .all).2 info hi
  have hyes := (((C33_detection pl b _).2 he).2 hd).2 hc
  rcases hs : sameName (classify b) with _ | g
  · refine Reads.bind (reads_withInput_ok hf h1 h2 h3 (hl b hf)
      (a := .error (.transform (.formatHandler .unknownFileFormat))) ?_) (.ret _)
    exact reads_call hyes (reads_call (h54.1 hs).2 (.ret _))
  · refine Reads.bind (reads_withInput_ok hf h1 h2 h3 (hl b hf) (a := .ok (some g)) ?_) (.ret _)
    exact reads_call hyes (reads_call ((h54.2 g hs).2 (passes_all g)).1 (.ret _))

/-- The number of files of a format, and of their bytes. -/
def tally (os : Os) (files : Path → Option Buf) (ps : List Path) (k : Option TransformFormat) : FormatStats :=
  let those := ps.filter fun p => formatOf os files p = k
  ⟨those.length, (those.map fun p => ((files p).map List.length).getD 0).sum⟩

theorem analyzeLoop_reads (os : Os) (pl : Platform) (hw : Wide pl) (hc : pl.overflowChecks = false)
    (files : Path → Option Buf) (hl : ∀ p b, files p = some b → b.length ≤ os.usizeMax) :
    ∀ (ps : List Path) (stats : Option TransformFormat → FormatStats),
      Reads os files (analyzeLoop (σ := σ) os pl ps stats) fun k =>
        ⟨(stats k).count + (tally os files ps k).count, (stats k).totalSize + (tally os files ps k).totalSize⟩
  | [], stats => .ret _
  | p :: ps, stats => by
    have ih := analyzeLoop_reads os pl hw hc files hl ps fun k => if k = formatOf os files p then
      ⟨(stats k).count + 1, (stats k).totalSize + ((files p).map List.length).getD 0⟩ else stats k
    refine (C67_detect os pl hw hc p files (hl p)).bind ?_
    refine .op _ _ ((files p).map List.length) _ (fun w hw => by simp [exec, hw]) ?_
    convert ih using 1
    funext k
    by_cases hk : k = formatOf os files p
    · simp only [tally, hk, if_true]
      rw [List.filter_cons_of_pos (by simp), List.length_cons, List.map_cons, List.sum_cons]
      congr 1 <;> omega
    · simp only [tally, hk, if_false]
      rw [List.filter_cons_of_neg (by simpa using Ne.symm hk)]

/-- **C67** (analysis): the analysis of a directory changes nothing, and reports for each format, and for the unknown ones, the
number of files detected as such and the sum of their sizes; together these are all files and all bytes. -/
theorem C67_analysis (os : Os) (pl : Platform) (hw : Wide pl) (hc : pl.overflowChecks = false) (w : World σ)
    (hl : ∀ p b, w.files p = some b → b.length ≤ os.usizeMax) (ps : List Path) :
    Prog.run os (analyzeLoop os pl ps fun _ => ⟨0, 0⟩) w = (w, some (tally os w.files ps)) ∧
    ∀ keys : List (Option TransformFormat), keys.Nodup → (∀ k, k ∈ keys) →
      (keys.map fun k => (tally os w.files ps k).count).sum = ps.length ∧
      (keys.map fun k => (tally os w.files ps k).totalSize).sum =
        (ps.map fun p => ((w.files p).map List.length).getD 0).sum := by
  constructor
  · have := (analyzeLoop_reads (σ := σ) os pl hw hc w.files hl ps fun _ => ⟨0, 0⟩).run w rfl
    simpa using this
  · intro keys hn hall
    have single : ∀ (ks : List (Option TransformFormat)) (x : Option TransformFormat) (n : Nat), ks.Nodup → x ∈ ks →
        (ks.map fun k => if x = k then n else 0).sum = n := by
      intro ks x n
      induction ks with
      | nil => intro _ h; simp at h
      | cons a as ih =>
        intro hnd hx
        rw [List.nodup_cons] at hnd
        rw [List.map_cons, List.sum_cons]
        by_cases ha : x = a
        · rw [if_pos ha]
          have : (as.map fun k => if x = k then n else 0) = as.map fun _ => 0 :=
            List.map_congr_left fun k hk => if_neg fun h => hnd.1 (by rw [← ha, h]; exact hk)
          rw [this]; simp
        · rw [if_neg ha, ih hnd.2 ((List.mem_cons.1 hx).resolve_left ha)]; omega
    induction ps with
    | nil => simp [tally]
    | cons p ps ih =>
      have e1 : ∀ k, (tally os w.files (p :: ps) k).count =
          (if formatOf os w.files p = k then 1 else 0) + (tally os w.files ps k).count := by
        intro k
        simp only [tally]
        by_cases h : formatOf os w.files p = k
        · rw [List.filter_cons_of_pos (by simpa using h), if_pos h, List.length_cons]; omega
        · rw [List.filter_cons_of_neg (by simpa using h), if_neg h]; omega
      have e2 : ∀ k, (tally os w.files (p :: ps) k).totalSize =
          (if formatOf os w.files p = k then ((w.files p).map List.length).getD 0 else 0) +
            (tally os w.files ps k).totalSize := by
        intro k
        simp only [tally]
        by_cases h : formatOf os w.files p = k
        · rw [List.filter_cons_of_pos (by simpa using h), if_pos h, List.map_cons, List.sum_cons]
        · rw [List.filter_cons_of_neg (by simpa using h), if_neg h]; omega
      have hadd : ∀ (ks : List (Option TransformFormat)) (f g : Option TransformFormat → Nat),
          (ks.map fun k => f k + g k).sum = (ks.map f).sum + (ks.map g).sum := by
        intro ks f g
        induction ks with
        | nil => rfl
        | cons a as ih => simp only [List.map_cons, List.sum_cons, ih]; omega
      simp only [e1, e2]
      rw [hadd, hadd, single keys _ _ hn (hall _), single keys _ _ hn (hall _), ih.1, ih.2]
      simp only [List.length_cons, List.map_cons, List.sum_cons]
      exact ⟨by omega, trivial⟩

/-- Non-vacuity: a texture and a text; the texture is BC1, the text unknown. -/
example : tally openOs mixedWorld.files [["d", "a.dds"], ["d", "b.txt"]] (some .bc1) = ⟨1, 137⟩ ∧
    tally openOs mixedWorld.files [["d", "a.dds"], ["d", "b.txt"]] none = ⟨1, 4⟩ ∧
    tally openOs mixedWorld.files [["d", "a.dds"], ["d", "b.txt"]] (some .bc2) = ⟨0, 0⟩ := by decide +kernel

end Dlt.Props
