import Verif.Props.BenchCommands
/-!
# C73: the command that measures the search for the best settings
-/

namespace Dlt.Props

open Dlt.Cache Dlt.DebugIo Dlt.DebugStats Dlt.DebugBench
open Dlt.Dds Dlt.FileFormats Dlt.FileIo Dlt.FileIo.Prog Dlt.Cli

/-- The result for a texture of `size` bytes whose searches took the time `t` each. -/
def searchResult (rate : Nat → Nat → Nat) (size t : Nat) : Result :=
  ⟨size, [Scenario.new rate "determine_best_transform_details" size 0 t]⟩

section
variable {S : Type} {once : Buf → Option Buf → Option (Except CliError S)} {heaps : Nat → Heap} {elapsed : Nat → Nat}
  {rate : Nat → Nat → Nat} {iterations warmup : Nat} {os : Os} {pl : Platform} {f : DebugIo.Format}

theorem bestFile_found (hwide : Wide pl) (hov : pl.overflowChecks = false) {p : Path} {b : Buf} {w : World (Nat × Option Result)}
    (hl : ∀ b, w.files p = some b → b.length < 2 ^ 32 ∧ b.length ≤ os.usizeMax) (hb : Found os w.files f p b) :
    (determineScenario (once (textureOf b)) (heaps w.st.1) rate (elapsed w.st.1) iterations warmup (reckoned b) = none →
      (run os (bestFile os pl f once heaps elapsed rate iterations warmup p) w).2 = none) ∧
    (∀ e, determineScenario (once (textureOf b)) (heaps w.st.1) rate (elapsed w.st.1) iterations warmup (reckoned b) = some (.error e) →
      ∃ e', run os (bestFile os pl f once heaps elapsed rate iterations warmup p) w =
        ({ w with st := (w.st.1 + 1, some ⟨reckoned b, []⟩) }, some (.error e'))) ∧
    (∀ s, determineScenario (once (textureOf b)) (heaps w.st.1) rate (elapsed w.st.1) iterations warmup (reckoned b) = some (.ok s) →
      run os (bestFile os pl f once heaps elapsed rate iterations warmup p) w =
        ({ w with st := (w.st.1 + 1, some ⟨reckoned b, [s]⟩) }, some (.ok (some ⟨reckoned b, [s]⟩)))) := by
  unfold bestFile
  rw [run_op]
  simp only [exec]
  rw [run_bind']
  obtain ⟨g, hrun⟩ := (C66_extract (σ := Nat × Option Result) os pl hwide hov f p (fun data _ =>
    .op (.call fun st => bestTexture once heaps elapsed rate iterations warmup data st) .ret)
    { w with st := (w.st.1, some ⟨0, []⟩) } hl).1 b hb
  rw [hrun, run_bind', run_op]
  simp only [exec, bestTexture, hb.length]
  rcases determineScenario (once (textureOf b)) (heaps w.st.1) rate (elapsed w.st.1) iterations warmup (reckoned b) with _ | e | s
  · exact ⟨fun _ => rfl, fun e h => (nomatch h), fun s h => (nomatch h)⟩
  · exact ⟨fun h => (nomatch h), fun e _ => ⟨_, rfl⟩, fun s h => (nomatch h)⟩
  · exact ⟨fun h => (nomatch h), fun e h => (nomatch h), fun s h => by cases h; rfl⟩

theorem bestFile_other (hwide : Wide pl) (hov : pl.overflowChecks = false) {p : Path} {w : World (Nat × Option Result)}
    (hl : ∀ b, w.files p = some b → b.length < 2 ^ 32 ∧ b.length ≤ os.usizeMax) (hb : ¬ ∃ b, Found os w.files f p b) :
    ∃ e, run os (bestFile os pl f once heaps elapsed rate iterations warmup p) w =
      ({ w with st := (w.st.1, some ⟨0, []⟩) }, some (.error e)) := by
  unfold bestFile
  rw [run_op]
  simp only [exec]
  rw [run_bind']
  obtain ⟨e, hrun⟩ := (C66_extract (σ := Nat × Option Result) os pl hwide hov f p (fun data _ =>
    .op (.call fun st => bestTexture once heaps elapsed rate iterations warmup data st) .ret)
    { w with st := (w.st.1, some ⟨0, []⟩) } hl).2 hb
  rw [hrun]
  exact ⟨e, rfl⟩

theorem bestLoop_spec (hwide : Wide pl) (hov : pl.overflowChecks = false) (hit : iterations ≠ 0)
    (files : Path → Option Buf) (entries : List Path) (hl : ∀ p ∈ entries, ∀ b, files p = some b → b.length < 2 ^ 32 ∧ b.length ≤ os.usizeMax)
    (ht : ∀ p ∈ entries, ∀ b, Found os files f p b → ∀ i k, ∃ r, once (textureOf b) (heaps i k (reckoned b)) = some r) (plenty : Prop)
    (hs : plenty → ∀ p ∈ entries, ∀ b, Found os files f p b → ∀ i k, ∃ s, once (textureOf b) (heaps i k (reckoned b)) = some (.ok s)) :
    ∀ (ps : List Path) (acc : List Result) (w : World (Nat × Option Result)), w.files = files → (∀ p ∈ ps, p ∈ entries) →
    ∃ st rs, run os (bestLoop os pl f once heaps elapsed rate iterations warmup ps acc) w = ({ w with st := st }, some (acc ++ rs)) ∧
      Tally (fun p r => ∃ b, Found os files f p b ∧ ∃ i, r = searchResult rate (reckoned b) (elapsed i / iterations))
        (fun p => plenty ∧ ∃ b, Found os files f p b) ps rs := by
  intro ps
  induction ps with
  | nil => intro acc w _ _; exact ⟨w.st, [], by simp [bestLoop, Prog.run], .nil⟩
  | cons p ps ih =>
    intro acc w hw hsub
    have hp := hsub p (by simp)
    unfold bestLoop
    rw [run_bind']
    by_cases hb : ∃ b, Found os files f p b
    · obtain ⟨b, hb⟩ := hb
      obtain ⟨f1, f2, f3⟩ := bestFile_found (once := once) (heaps := heaps) (elapsed := elapsed) (rate := rate) (iterations := iterations)
        (warmup := warmup) (w := w) hwide hov (by rw [hw]; exact hl p hp) (by rw [hw]; exact hb)
      obtain ⟨r, h1, h2, h3⟩ := (C73_determine (once (textureOf b)) (heaps w.st.1) rate (elapsed w.st.1) warmup (reckoned b)
        (fun k => ht p hp b hb _ k)).1 iterations hit
      rcases r with e | x
      · obtain ⟨e', he⟩ := f2 e h1
        rw [he]
        dsimp only
        obtain ⟨st, rs, h4, h5⟩ := ih acc { w with st := (w.st.1 + 1, some ⟨reckoned b, []⟩) } hw fun q hq => hsub q (by simp [hq])
        refine ⟨st, rs, h4, .skip ?_ h5⟩
        rintro ⟨hpl, _⟩
        obtain ⟨x, hx⟩ := h2.2 fun i _ => hs hpl p hp b hb _ i
        exact nomatch hx
      · rw [f3 x h1]
        dsimp only
        obtain ⟨st, rs, h4, h5⟩ := ih (acc ++ [⟨reckoned b, [x]⟩]) { w with st := (w.st.1 + 1, some ⟨reckoned b, [x]⟩) } hw fun q hq => hsub q (by simp [hq])
        refine ⟨st, ⟨reckoned b, [x]⟩ :: rs, by rw [h4]; simp, .one ⟨b, hb, w.st.1, ?_⟩ h5⟩
        rw [h3 x rfl]
        rfl
    · obtain ⟨e, he⟩ := bestFile_other (once := once) (heaps := heaps) (elapsed := elapsed) (rate := rate) (iterations := iterations)
        (warmup := warmup) (w := w) hwide hov (by rw [hw]; exact hl p hp) (by rw [hw]; exact hb)
      rw [he]
      dsimp only
      obtain ⟨st, rs, h4, h5⟩ := ih acc { w with st := (w.st.1, some ⟨0, []⟩) } hw fun q hq => hsub q (by simp [hq])
      exact ⟨st, rs, h4, .skip (fun h => hb h.2) h5⟩

/-- Without iterations: no result but a panic, at the first texture for which the searches of the warmup succeed. -/
theorem bestLoop_zero (hwide : Wide pl) (hov : pl.overflowChecks = false)
    (files : Path → Option Buf) (entries : List Path) (hl : ∀ p ∈ entries, ∀ b, files p = some b → b.length < 2 ^ 32 ∧ b.length ≤ os.usizeMax)
    (hs : ∀ p ∈ entries, ∀ b, Found os files f p b → ∀ i k, ∃ s, once (textureOf b) (heaps i k (reckoned b)) = some (.ok s)) :
    ∀ (ps : List Path) (acc : List Result) (w : World (Nat × Option Result)), w.files = files → (∀ p ∈ ps, p ∈ entries) →
    ((run os (bestLoop os pl f once heaps elapsed rate 0 warmup ps acc) w).2 = none ↔ ∃ p ∈ ps, ∃ b, Found os files f p b) := by
  intro ps
  induction ps with
  | nil => intro acc w _ _; simp [bestLoop, Prog.run]
  | cons p ps ih =>
    intro acc w hw hsub
    have hp := hsub p (by simp)
    unfold bestLoop
    rw [run_bind']
    by_cases hb : ∃ b, Found os files f p b
    · refine ⟨fun _ => ⟨p, by simp, hb⟩, fun _ => ?_⟩
      obtain ⟨b, hb⟩ := hb
      have h := (C73_determine (once (textureOf b)) (heaps w.st.1) rate (elapsed w.st.1) warmup (reckoned b)
        (fun k => (hs p hp b hb _ k).elim fun s h => ⟨_, h⟩)).2.2 fun i _ => hs p hp b hb _ i
      have hn := (bestFile_found (once := once) (heaps := heaps) (elapsed := elapsed) (rate := rate) (iterations := 0)
        (warmup := warmup) (w := w) hwide hov (by rw [hw]; exact hl p hp) (by rw [hw]; exact hb)).1 h
      rcases hr : run os (bestFile os pl f once heaps elapsed rate 0 warmup p) w with ⟨w2, _ | r⟩
      · rfl
      · rw [hr] at hn; exact nomatch hn
    · obtain ⟨e, he⟩ := bestFile_other (once := once) (heaps := heaps) (elapsed := elapsed) (rate := rate) (iterations := 0)
        (warmup := warmup) (w := w) hwide hov (by rw [hw]; exact hl p hp) (by rw [hw]; exact hb)
      rw [he]
      dsimp only
      rw [ih acc { w with st := (w.st.1, some ⟨0, []⟩) } hw fun q hq => hsub q (by simp [hq])]
      constructor
      · rintro ⟨q, hq, h⟩; exact ⟨q, by simp [hq], h⟩
      · rintro ⟨q, hq, h⟩
        rcases List.mem_cons.1 hq with rfl | hq
        · exact absurd h hb
        · exact ⟨q, hq, h⟩

end

/-! ## The formats -/

/-- What the command relies on: 64-bit addresses and a release build, files of less than 4 GiB and an allocator that gives the size requested. -/
structure SearchSetting (os : Os) (pl : Platform) (heaps : Nat → Heap) (entries : List Path) (w : World (Nat × Option Result)) : Prop where
  wide : Wide pl
  release : pl.overflowChecks = false
  small : ∀ p ∈ entries, ∀ b, w.files p = some b → b.length < 2 ^ 32 ∧ b.length ≤ os.usizeMax
  heap : ∀ i, (heaps i).Wf

/-- The command does not panic and changes no file; its results are those of the entries with a texture, in order, each with the
average time of a search; none is missing if nothing runs out.  With `--iterations 0` it panics exactly if there is a texture. -/
def SearchMeasured {S : Type} (f : DebugIo.Format) (os : Os) (pl : Platform)
    (auto : Estimator Unit CliError → Buf → Buf → Nat → Unit → Option (Buf × Unit × Except (DetermineBestError CliError) S))
    (lib : Lib) (heaps : Nat → Heap) (elapsed : Nat → Nat) (rate : Nat → Nat → Nat) (o : BestOptions) (entries : List Path)
    (w : World (Nat × Option Result)) (plenty : Prop) : Prop :=
  (o.iterations ≠ 0 → ∃ st rs, run os (bestCommand os pl f auto lib heaps elapsed rate o entries) w = ({ w with st := st }, some rs) ∧
    Tally (fun p r => ∃ b, Found os w.files f p b ∧ ∃ i, r = searchResult rate (reckoned b) (elapsed i / o.iterations))
      (fun p => plenty ∧ ∃ b, Found os w.files f p b) entries rs) ∧
  (plenty → o.iterations = 0 → ((run os (bestCommand os pl f auto lib heaps elapsed rate o entries) w).2 = none ↔
    ∃ p ∈ entries, ∃ b, Found os w.files f p b))

theorem searchMeasured_of {S : Type} {f : DebugIo.Format} {os : Os} {pl : Platform}
    {auto : Estimator Unit CliError → Buf → Buf → Nat → Unit → Option (Buf × Unit × Except (DetermineBestError CliError) S)}
    {lib : Lib} (hl : Ample lib) {heaps : Nat → Heap} {elapsed : Nat → Nat} {rate : Nat → Nat → Nat} {o : BestOptions}
    {entries : List Path} {w : World (Nat × Option Result)} {plenty : Prop} (h : SearchSetting os pl heaps entries w) (k : Nat)
    (ht : ∀ p b, Found os w.files f p b → ∀ est out, out.length = reckoned b → ∃ o st r, auto est (textureOf b) out (reckoned b) () = some (o, st, r))
    (hp : plenty → (∀ i k n, (heaps i k n).isSome) ∧ Estimates lib o.algorithm o.getLevel ∧ ∀ p b, Found os w.files f p b →
      ∀ est need out, Answering est (reckoned b / k) need → out.length = reckoned b →
        ∃ o st s, auto est (textureOf b) out (reckoned b) () = some (o, st, .ok s)) :
    SearchMeasured f os pl auto lib heaps elapsed rate o entries w plenty := by
  have htot : ∀ p ∈ entries, ∀ b, Found os w.files f p b → ∀ i k, ∃ r,
      determineBestPlain auto lib o.getLevel o.algorithm (textureOf b) (heaps i k (reckoned b)) = some r := by
    intro p _ b hb i k
    refine determineBestPlain_total (fun est out ho => ?_) _ _ _ _ fun x hx => ?_
    · rw [hb.length] at ho ⊢
      exact ht p b hb est out ho
    · rw [h.heap i _ _ _ hx, hb.length]
  have hok : plenty → ∀ p ∈ entries, ∀ b, Found os w.files f p b → ∀ i k, ∃ s,
      determineBestPlain auto lib o.getLevel o.algorithm (textureOf b) (heaps i k (reckoned b)) = some (.ok s) := by
    intro hpl p _ b hb i k
    obtain ⟨hm, he, hs⟩ := hp hpl
    obtain ⟨inner, hi⟩ := estimator_created he
    obtain ⟨buf, hbuf⟩ := Option.isSome_iff_exists.1 (hm i k (reckoned b))
    obtain ⟨o, st, s, ha⟩ := hs p b hb inner _ buf (answering_plain hl he hi _) (h.heap i _ _ _ hbuf)
    refine ⟨s, ?_⟩
    unfold determineBestPlain
    rw [hi, hbuf]
    dsimp only
    rw [hb.length, ha]
    rfl
  constructor
  · intro hit
    obtain ⟨st, rs, h1, h2⟩ := bestLoop_spec (elapsed := elapsed) (rate := rate) (warmup := o.warmup) h.wide h.release hit w.files entries
      h.small htot plenty hok entries [] w rfl fun _ h => h
    exact ⟨st, rs, h1, h2⟩
  · intro hpl hit
    have h1 := bestLoop_zero (elapsed := elapsed) (rate := rate) (warmup := o.warmup) h.wide h.release w.files entries
      h.small (hok hpl) entries [] w rfl fun _ h => h
    unfold bestCommand
    rw [hit]
    exact h1

/-- The level with which the command estimates: the one given, or 3 for ZStandard and 0 for the estimator of matches. -/
def usedLevel (o : BestOptions) : BitVec 32 :=
  match o.level, o.algorithm with
  | some l, _ => l
  | none, .zstandard => 3
  | none, .losslessTransformUtils => 0

theorem getLevel_eq (o : BestOptions) : o.getLevel = usedLevel o := by
  obtain ⟨_, _, level, algorithm⟩ := o
  rcases level with _ | l <;> cases algorithm <;> rfl

/-- **C73** (the command `benchmark-determine-best`), for BC1 with both searches, for BC2 and for BC3. -/
theorem C73_search_command (env : Env) (norm : Norm.Bc1.Heap) (useAll : Bool) (os : Os) (pl : Platform) (lib : Lib) (hl : Ample lib)
    (heaps : Nat → Heap) (elapsed : Nat → Nat) (rate : Nat → Nat → Nat) (o : BestOptions) (entries : List Path)
    (w : World (Nat × Option Result)) (h : SearchSetting os pl heaps entries w) :
    SearchMeasured .bc1 os pl (fun est => Bc1.transformAuto env pl.m est useAll) lib heaps elapsed rate o entries w
      ((∀ i k n, (heaps i k n).isSome) ∧ Estimates lib o.algorithm (usedLevel o) ∧ ∀ n, env.canAlloc n = true) ∧
    SearchMeasured .bc1 os pl (autoNormalized norm pl.m useAll) lib heaps elapsed rate o entries w
      ((∀ i k n, (heaps i k n).isSome) ∧ Estimates lib o.algorithm (usedLevel o) ∧ ∀ k n, norm.canAlloc k n = true) ∧
    SearchMeasured .bc2 os pl (fun est => Bc2.transformAuto env pl.m est useAll) lib heaps elapsed rate o entries w
      ((∀ i k n, (heaps i k n).isSome) ∧ Estimates lib o.algorithm (usedLevel o) ∧ ∀ n, env.canAlloc n = true) ∧
    SearchMeasured .bc3 os pl (fun est => Bc3.transformAuto env pl.m est useAll) lib heaps elapsed rate o entries w
      ((∀ i k n, (heaps i k n).isSome) ∧ Estimates lib o.algorithm (usedLevel o) ∧ ∀ n, env.canAlloc n = true) := by
  rw [← getLevel_eq]
  refine ⟨?_, ?_, ?_, ?_⟩
  · refine searchMeasured_of hl h 2 (fun p b hb est out ho => ?_) fun ⟨hm, he, ha⟩ => ⟨hm, he, fun p b hb est need out hn ho => ?_⟩
    · have hB := hb.blocks
      rw [← hb.length] at ho ⊢
      obtain ⟨o, s, r, h, _⟩ := C17_bc1_auto_reports_used env pl.m est useAll (textureOf b) out () hB (by omega)
      exact ⟨o, s, r, h⟩
    · have hB := hb.blocks
      rw [← hb.length] at ho hn ⊢
      exact auto1 env ha pl.m useAll hn hB ho ()
  · refine searchMeasured_of hl h 2 (fun p b hb est out ho => ?_) fun ⟨hm, he, ha⟩ => ⟨hm, he, fun p b hb est need out hn ho => ?_⟩
    · have hB := hb.blocks
      rw [← hb.length] at ho ⊢
      obtain ⟨o, s, r, h, _⟩ := C50_auto_normalize norm pl.m est useAll (textureOf b) out () hB (by omega)
      refine ⟨o, s, r.map fun d => ⟨d.decorr, d.split⟩, ?_⟩
      unfold autoNormalized
      rw [h]
      rfl
    · have hB := hb.blocks
      rw [← hb.length] at ho hn ⊢
      exact auto1n norm ha pl.m useAll hn hB ho ()
  · refine searchMeasured_of hl h 4 (fun p b hb est out ho => ?_) fun ⟨hm, he, ha⟩ => ⟨hm, he, fun p b hb est need out hn ho => ?_⟩
    · have hB := hb.blocks
      rw [← hb.length] at ho ⊢
      obtain ⟨o, s, r, h, _⟩ := C18_bc2_auto_reports_used env pl.m est useAll (textureOf b) out () hB (by omega)
      exact ⟨o, s, r, h⟩
    · have hB := hb.blocks
      rw [← hb.length] at ho hn ⊢
      exact auto2 env ha pl.m useAll hn hB ho ()
  · refine searchMeasured_of hl h 4 (fun p b hb est out ho => ?_) fun ⟨hm, he, ha⟩ => ⟨hm, he, fun p b hb est need out hn ho => ?_⟩
    · have hB := hb.blocks
      rw [← hb.length] at ho ⊢
      obtain ⟨o, s, r, h, _⟩ := C19_bc3_auto_reports_used env pl.m est useAll (textureOf b) out () hB (by omega)
      exact ⟨o, s, r, h⟩
    · have hB := hb.blocks
      rw [← hb.length] at ho hn ⊢
      exact auto3 env ha pl.m useAll hn hB ho ()

/-! ## A case that meets the hypotheses -/

/-- The world of the example of the benchmark: one texture and one text. -/
def searchWorld : World (Nat × Option Result) := { mixedWorld with st := (0, none) }

/-- The hypotheses of `C73_search_command` can be met. -/
example : SearchSetting openOs somePlatform (fun _ => exampleAnswers.heap) [["d", "a.dds"], ["d", "b.txt"]] searchWorld ∧
    Estimates exampleLib .zstandard 3 := by
  refine ⟨⟨by unfold Wide; decide, rfl, ?_, ?_⟩, ?_⟩
  · intro p _ b h
    rcases example_files h with rfl | rfl <;> decide +kernel
  · intro i k n b h
    cases h
    simp
  · intro x
    unfold trueSize
    dsimp only
    rw [if_pos (by decide)]
    split <;> simp [exampleLib, Except.toOption]

/-- Two iterations after one for warmup, which take 90 together: one result with the time 45. -/
example : (run openOs (bestCommand openOs somePlatform .bc1 (fun est => Bc1.transformAuto ⟨fun _ => true, 2 ^ 64 - 1⟩ somePlatform.m est false)
      exampleLib (fun _ => exampleAnswers.heap) (fun _ => 90) (fun n t => n * 1000 / t) {} [["d", "a.dds"], ["d", "b.txt"]]) searchWorld).2 =
    some [searchResult (fun n t => n * 1000 / t) 8 45] := by
  decide +kernel

/-- No iterations: the panic. -/
example : (run openOs (bestCommand openOs somePlatform .bc1 (fun est => Bc1.transformAuto ⟨fun _ => true, 2 ^ 64 - 1⟩ somePlatform.m est false)
      exampleLib (fun _ => exampleAnswers.heap) (fun _ => 90) (fun n t => n * 1000 / t) { iterations := 0 }
      [["d", "a.dds"], ["d", "b.txt"]]) searchWorld).2 = none := by
  decide +kernel

end Dlt.Props
