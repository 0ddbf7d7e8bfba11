import Verif.Props.EndianCommand
/-!
# C77: the verdict of the command `debug-endian`
-/

namespace Dlt.Props

open Dlt.FileFormats Dlt.FileIo Dlt.FileIo.Prog Dlt.Cli Dlt.Dds Dlt.FileCompare Dlt.DebugEndian
open Dlt.Embed (TransformFormat)

/-! ## A truncated file -/

theorem combinations_fail {E : Type} {os : Os} {data : Buf} (hos : Obliging os data.length) {pl : Dds.Platform} {dbg : E → String}
    {inDir outDir : Path} {name : String} {ext : Option String} (hext : IsExtension os [name] ext) (hcan : Dds.canHandle pl data ext = some true)
    (hne : inDir ≠ outDir) {build : ApiVariant → Bool → Bundle Unit E}
    (hb : ∀ v split (fresh : Buf), fresh.length = data.length → ∃ e, transformBundle pl dbg (build v split) data fresh () = some (fresh, (), .error e)) :
    ∀ (l : List (ApiVariant × Bool)) (w : World Unit), w.files (inDir ++ [name]) = some data → w.dirs outDir = true →
      w.dirs (outDir ++ [name]) = false →
      ∃ w', run os (testAllCombinations os (Cli.allHandlers pl dbg) (inDir ++ [name]) (outDir ++ [name]) build l) w =
        (w', some (.error .allFailed))
  | [], w, _, _, _ => ⟨w, rfl⟩
  | (v, split) :: l, w, hin, hd, hn => by
    have hr := hos.readable hin
    obtain ⟨fresh, hc⟩ := hos.creatable (name := name) hd hn
    have hpne : inDir ++ [name] ≠ outDir ++ [name] := fun h => hne (List.append_inj_left' h rfl)
    obtain ⟨e, he⟩ := hb v split fresh hc.length
    have hsl : transformSliceWithBundle (Dds.handler pl dbg) data fresh (build v split) w.st = some (fresh, (), .error e) := by
      have := hc.length
      unfold transformSliceWithBundle
      rw [if_neg (by omega)]
      exact he
    have hrun := (C37_file_with_multiple_handlers os w [Dds.handler pl dbg] (inDir ++ [name]) (outDir ++ [name]) hpne
      (build v split) data fresh ext (extension_move hext inDir) hr hc).1.1 (Dds.handler pl dbg) w.st
      ⟨[], [], w.st, rfl, rfl, by simp [Dds.handler, hcan]⟩
    rw [hsl] at hrun
    have hrun := hrun rfl
    obtain ⟨w', hw'⟩ := combinations_fail hos hext hcan hne hb l
      ⟨fun q => if q = outDir ++ [name] then some fresh else w.files q, w.dirs, w.counter, ()⟩
      ((if_neg hpne).trans hin) hd hn
    refine ⟨w', ?_⟩
    unfold testAllCombinations
    rw [run_bind, show Cli.allHandlers pl dbg = [Dds.handler pl dbg] from rfl, hrun]
    exact hw'

/-- A truncated file makes the transform command fail, after it has tried all combinations. -/
theorem run_transformSingleFile_truncated {E : Type} {f : DebugIo.Format} (hf : Tested f) {data : Buf} (hdds : IsDds data)
    (hcl : classify data = ddsName f) (htr : data.length < headerSize data + reckoned data) (hlen : data.length < 2 ^ 32)
    {os : Os} (hos : Obliging os data.length) {pl : Dds.Platform} (hw : Wide pl) (hoc : pl.overflowChecks = false) (dbg : E → String)
    {w : World Unit} (htree : IsTree w) {inDir outDir : Path} {name : String} {ext : Option String}
    (hext : IsExtension os [name] ext) (hx : ext = none ∨ ext = some "dds") (hin : w.files (inDir ++ [name]) = some data)
    (hd : w.dirs outDir = true) (hn : w.dirs (outDir ++ [name]) = false) (hne : inDir ≠ outDir) :
    ∃ w', run os (transformSingleFile os pl dbg (inDir ++ [name]) outDir) w = (w', some (.error .allFailed)) := by
  have hr := hos.readable hin
  unfold transformSingleFile
  rw [run_orFail_createDirAll os htree hd, List.getLast?_concat]
  dsimp only
  have he : extractLowercaseExtension os (inDir ++ [name]) = ext := extension_spec (extension_move hext inDir)
  have hcan : Dds.canHandle pl data ext = some true := (((C33_detection pl data ext).2 hx).2 hdds).2 hoc
  have hp : parseDds pl data = some (some (reported data)) := by
    rw [parseDds_spec, if_pos hdds, if_neg (by simp [hoc])]
  have h54 := (C54_extraction pl hw data .all).2 (reported data) hp
  have hsame : sameName (classify data) = some (formatName f) := by
    rw [hcl]; cases hf <;> rfl
  have hfmt := ((h54.2 _ hsame).2 (passes_all _)).1
  have hdetect : run os (DebugIo.getTransformFormat os (inDir ++ [name]) (DebugIo.allHandlers pl) .all) w =
      (w, some (.ok (some (formatName f)))) := by
    unfold DebugIo.getTransformFormat
    rw [run_withInput hr, he]
    simp [DebugIo.allHandlers, DebugIo.formatLoop, DebugIo.ddsHandler, run, exec, hcan, hfmt, Except.mapError]
  have hshort : data.length < headerSize data + (reported data).dataLength.toNat := by
    have e : (reported data).dataLength = BitVec.ofNat 32 (min (reckoned data) (2 ^ 32 - 1)) := rfl
    rw [e, BitVec.toNat_ofNat, Nat.mod_eq_of_lt (by omega)]
    have : 4 ≤ headerSize data := by rcases headerSize_cases data with h | h <;> omega
    omega
  have hb : ∀ (bundle : Bundle Unit E) (fresh : Buf), fresh.length = data.length →
      ∃ e, transformBundle pl dbg bundle data fresh () = some (fresh, (), .error e) := fun bundle fresh hfl =>
    ⟨_, (C31_transform_truncated_partial pl hw dbg bundle data fresh () (by omega)).2.1 _ hp hshort⟩
  unfold orFail
  rw [run_bind, hdetect]
  dsimp only
  cases hf with
  | bc1 => exact combinations_fail hos hext hcan hne (fun _ _ => hb _) combinations w hin hd hn
  | bc2 => exact combinations_fail hos hext hcan hne (fun _ _ => hb _) combinations w hin hd hn

/-- The test of a truncated file ends, with a result that is no success. -/
theorem testFile_truncated {E : Type} {f : DebugIo.Format} (hf : Tested f) {data : Buf} (hdds : IsDds data)
    (hcl : classify data = ddsName f) (htr : data.length < headerSize data + reckoned data) (hlen : data.length < 2 ^ 32)
    (lab : Lab Unit E) (hos : Obliging lab.os data.length) (hle : Wide lab.le) (hle' : lab.le.overflowChecks = false) (hworks : LabWorks lab)
    (w : World Unit) (htree : IsTree w) (d : Dirs) (hfresh : Fresh w d) (leDir : Path) (inpBe : Path) (name : String) (ext : Option String)
    (hext : IsExtension lab.os [name] ext) (hx : ext = none ∨ ext = some "dds") (hinLe : w.files (leDir ++ [name]) = some data) :
    ∃ w', testFile lab (leDir ++ [name]) inpBe d w = (w', some (.ok ⟨false, false, false⟩)) := by
  have hmem : d.transformLe ∈ [d.transformLe, d.transformBe, d.untransformLe, d.untransformBe] := by simp
  obtain ⟨w1, h1⟩ := run_transformSingleFile_truncated hf hdds hcl htr hlen hos hle hle' lab.dbg htree hext hx hinLe
    (hfresh.there _ hmem) (hfresh.empty _ hmem [name] (by simp)).2 (by
      rintro rfl
      rw [(hfresh.empty _ hmem [name] (by simp)).1] at hinLe
      exact nomatch hinLe)
  have k1 : runTransformCommand lab false (leDir ++ [name]) d.transformLe w = (w1, some false) := by
    unfold runTransformCommand
    rw [crossRun_there hworks false _ (isThere_file hinLe) (isThere_dir (hfresh.there _ hmem)), if_neg (by simp), h1]; rfl
  obtain ⟨w2, s2, k2⟩ : ∃ w2 s2, runTransformCommand lab true inpBe d.transformBe w1 = (w2, some s2) := by
    unfold runTransformCommand crossRun
    rw [hworks.cross]
    exact ⟨_, _, rfl⟩
  refine ⟨w2, ?_⟩
  unfold testFile
  simp only [k1, k2, Bool.false_and]
  rfl

/-! ## Directories are made and files copied -/

/-- A new directory. -/
def addDir (w : World Unit) (p : Path) : World Unit := { w with dirs := fun q => if q = p then true else w.dirs q }

theorem addDir_self {w : World Unit} {p : Path} (h : w.dirs p = true) : addDir w p = w := by
  unfold addDir
  have : (fun q => if q = p then true else w.dirs q) = w.dirs := by
    funext q
    split
    · next hq => rw [hq, h]
    · rfl
  rw [this]

theorem addDir_iff {w : World Unit} {p q : Path} : (addDir w p).dirs q = true ↔ q = p ∨ w.dirs q = true := by
  unfold addDir
  dsimp only
  split <;> simp [*]

theorem addDir_tree {w : World Unit} (ht : IsTree w) {d : Path} {x : String} (hd : w.dirs d = true) (hf : w.files (d ++ [x]) = none) :
    IsTree (addDir w (d ++ [x])) where
  parent p name h := by
    rw [addDir_iff]
    right
    rcases h with h | h
    · exact ht.parent p name (.inl h)
    · rcases addDir_iff.1 h with h | h
      · rw [List.append_inj_left' h rfl]; exact hd
      · exact ht.parent p name (.inr h)
  notBoth p h := by
    rcases addDir_iff.1 h with rfl | h
    · exact hf
    · exact ht.notBoth p h

theorem addDir_finite {w : World Unit} (h : Finitely w) (p : Path) : Finitely (addDir w p) := by
  obtain ⟨l, hl⟩ := h
  refine ⟨p :: l, fun q hq => ?_⟩
  rw [isThere_iff, addDir_iff] at hq
  rcases hq with hq | rfl | hq
  · exact List.mem_cons_of_mem _ (hl q ((isThere_iff w q).2 (.inl hq)))
  · simp
  · exact List.mem_cons_of_mem _ (hl q ((isThere_iff w q).2 (.inr hq)))

theorem setFile_finite {w : World Unit} (h : Finitely w) (p : Path) (c : Option Buf) : Finitely (w.setFile p c) := by
  obtain ⟨l, hl⟩ := h
  refine ⟨p :: l, fun q hq => ?_⟩
  by_cases hp : q = p
  · subst hp; simp
  · rw [isThere_iff, setFile_ne hp] at hq
    exact List.mem_cons_of_mem _ (hl q ((isThere_iff w q).2 hq))

theorem run_createDirAll_one {α : Type} {os : Os} (k : Prog Unit (Except FileError α)) {p : Path} {w : World Unit} (hok : dirOk os w p = true) :
    ∀ (rest : List String) (base : Path), base ++ rest = p → (∀ q, q <+: p → q ≠ p → w.dirs q = true) →
      run os (createDirAll base rest k) w = run os k (addDir w p)
  | [], base, h, _ => by
    rw [List.append_nil] at h
    subst h
    unfold createDirAll try'
    rw [run_op, exec_mkdir, if_pos hok]
    rfl
  | name :: rest, base, h, hup => by
    have hb : w.dirs base = true := hup base ⟨_, h⟩ (by
      rintro rfl
      simp at h)
    have ih := run_createDirAll_one k hok rest (base ++ [name]) (by simpa using h) hup
    unfold createDirAll try'
    rw [run_op, exec_mkdir, if_pos (by simp [dirOk, hb])]
    change run os (createDirAll (base ++ [name]) rest k) (addDir w base) = _
    rw [addDir_self hb, ih]

theorem run_createDirAll_new {α : Type} {os : Os} (k : Prog Unit (Except FileError α)) {w : World Unit} (ht : IsTree w) {d : Path} {x : String}
    (hd : w.dirs d = true) (hf : w.files (d ++ [x]) = none) (hc : os.canMkdir (d ++ [x]) = true) :
    run os (createDirAll [] (d ++ [x]) k) w = run os k (addDir w (d ++ [x])) := by
  refine run_createDirAll_one k (by simp [dirOk, hf, hc]) _ [] rfl fun q hq hne => ?_
  rcases List.prefix_concat_iff.1 hq with h | ⟨t, h⟩
  · exact absurd h hne
  · exact ht.dirs_up q t (by rw [h]; exact hd)

theorem run_createDirs {os : Os} {temp : Path} (hc : ∀ q, os.canMkdir q = true) :
    ∀ (names : List String) (w : World Unit), IsTree w → Finitely w → w.dirs temp = true → (∀ n ∈ names, w.files (temp ++ [n]) = none) →
      ∃ w', run os (createDirs (names.map fun n => temp ++ [n])) w = (w', some (.ok ())) ∧ IsTree w' ∧ Finitely w' ∧ w'.files = w.files ∧
        ∀ q, w'.dirs q = true ↔ (∃ n ∈ names, q = temp ++ [n]) ∨ w.dirs q = true
  | [], w, ht, hfin, _, _ => ⟨w, rfl, ht, hfin, rfl, by simp⟩
  | n :: names, w, ht, hfin, hd, hn => by
    have hn0 := hn n (by simp)
    obtain ⟨w', h1, h2, h3, h4, h5⟩ := run_createDirs hc names (addDir w (temp ++ [n])) (addDir_tree ht hd hn0) (addDir_finite hfin _)
      (addDir_iff.2 (.inr hd)) fun m hm => hn m (List.mem_cons_of_mem _ hm)
    refine ⟨w', ?_, h2, h3, h4, fun q => ?_⟩
    · rw [List.map_cons]
      unfold createDirs
      rw [run_createDirAll_new _ ht hd hn0 (hc _)]
      exact h1
    · rw [h5, addDir_iff]
      simp only [List.mem_cons, exists_eq_or_imp]
      constructor
      · rintro (h | h | h)
        · exact .inl (.inr h)
        · exact .inl (.inl h)
        · exact .inr h
      · rintro ((h | h) | h)
        · exact .inr (.inl h)
        · exact .inl h
        · exact .inr (.inr h)

theorem copyFile_there {E : Type} {site : Site Unit E} (hc : ∀ a b, site.copies a b = true) {src dir : Path} {name : String} {w : World Unit}
    {b : Buf} (hs : w.files src = some b) (hd : w.dirs dir = true) (hn : w.dirs (dir ++ [name]) = false) :
    copyFile site src (dir ++ [name]) w = (w.setFile (dir ++ [name]) (some b), true) := by
  unfold copyFile
  rw [hs]
  simp [hd, hn, hc]

theorem setFile_tree {w : World Unit} (ht : IsTree w) {dir : Path} {name : String} (c : Buf) (hd : w.dirs dir = true)
    (hn : w.dirs (dir ++ [name]) = false) : IsTree (w.setFile (dir ++ [name]) (some c)) := ht.after c hd hn

theorem near_tree {w w' : World Unit} {d : Dirs} {name : String} (ht : IsTree w) (hf : Fresh w d) (hn : Near w d name w') : IsTree w' where
  parent p x h := by
    rw [hn.1] at h ⊢
    rcases h with h | h
    · by_cases ho : ∀ q ∈ [d.transformLe, d.transformBe, d.untransformLe, d.untransformBe], p ++ [x] ≠ q ++ [name]
      · rw [hn.2 _ ho] at h
        exact ht.parent p x (.inl h)
      · simp only [not_forall, not_not] at ho
        obtain ⟨q, hq, he⟩ := ho
        rw [List.append_inj_left' he rfl]
        exact hf.there q hq
    · exact ht.parent p x (.inr h)
  notBoth p h := by
    rw [hn.1] at h
    rw [hn.2 p, ht.notBoth p h]
    rintro q hq rfl
    rw [(hf.empty q hq [name] (by simp)).2] at h
    exact nomatch h

theorem near_finite {w w' : World Unit} {d : Dirs} {name : String} (hfin : Finitely w) (hn : Near w d name w') : Finitely w' := by
  obtain ⟨l, hl⟩ := hfin
  refine ⟨([d.transformLe, d.transformBe, d.untransformLe, d.untransformBe].map fun q => q ++ [name]) ++ l, fun p hp => ?_⟩
  rw [List.mem_append]
  by_cases ho : ∀ q ∈ [d.transformLe, d.transformBe, d.untransformLe, d.untransformBe], p ≠ q ++ [name]
  · right
    rw [isThere_iff, hn.1, hn.2 p ho] at hp
    exact hl p ((isThere_iff w p).2 hp)
  · left
    simp only [not_forall, not_not] at ho
    obtain ⟨q, hq, he⟩ := ho
    exact List.mem_map.2 ⟨q, hq, he.symm⟩

/-! ## One file -/

/-- The tools work, the system refuses nothing for the files of `w`, and new temporary directories have new names. -/
structure Kind {E : Type} (site : Site Unit E) (w : World Unit) : Prop where
  works : LabWorks site.toLab
  willing : ∀ q b, w.files q = some b → Willing site.os b.length ∧ b.length < 2 ^ 32
  wideLe : Wide site.le
  wideBe : Wide site.be
  uncheckedLe : site.le.overflowChecks = false
  uncheckedBe : site.be.overflowChecks = false
  fuel : 1 ≤ site.fuel
  disk : ∀ w', IsTree w' → Finitely w' → Helpful (site.diskOf w') w'
  temp : ∀ w', Finitely w' → ∃ name, site.tempName w' = some name ∧ isThere w' (site.root ++ ["tmp"] ++ [name]) = false
  clock : ∀ w', (site.nanos w').isSome = true ∧ (site.nanosLater w').isSome = true
  copies : ∀ a b, site.copies a b = true
  stays : ∀ q, site.stays q = false

/-- Only the directory for temporary directories is new. -/
def Same (dir : Path) (w w' : World Unit) : Prop := w'.files = w.files ∧ (w'.dirs = w.dirs ∨ w'.dirs = (addDir w dir).dirs)

theorem testIn_result {E : Type} {site : Site Unit E} {w0 : World Unit} (hk : Kind site w0) {w : World Unit} (ht : IsTree w) (hfin : Finitely w)
    {temp : Path} (hd : w.dirs temp = true) (hnew : ∀ rel, rel ≠ [] → w.files (temp ++ rel) = none ∧ w.dirs (temp ++ rel) = false)
    {path : Path} {f : DebugIo.Format} {data : Buf} (hs : Suitable site.os w path f data) (h0 : w0.files path = some data) :
    ∃ w' r, testIn site temp path w = (w', some (.ok r)) ∧ (r.isSuccess = true ↔ headerSize data + reckoned data ≤ data.length) := by
  obtain ⟨hwill, hlen⟩ := hk.willing _ _ h0
  obtain ⟨base, hbase⟩ : ∃ base, generateRandomDirName "endian_test" (site.nanos w) (site.nanosLater w) site.pid site.threadNum = some base := by
    obtain ⟨a, ha⟩ := Option.isSome_iff_exists.1 (hk.clock w).1
    obtain ⟨b, hb⟩ := Option.isSome_iff_exists.1 (hk.clock w).2
    unfold generateRandomDirName randSuffix
    rw [ha, hb]
    exact ⟨_, rfl⟩
  let names := [base ++ "_le", base ++ "_be", base ++ "_transform_le", base ++ "_transform_be", base ++ "_untransform_le", base ++ "_untransform_be"]
  obtain ⟨w1, r1, t1, fin1, f1, d1⟩ := run_createDirs (os := site.os) (temp := temp) hwill.canMkdir names w ht hfin hd
    fun n _ => (hnew [n] (by simp)).1
  have hnodup : names.Nodup := by
    simp only [names, List.nodup_cons, List.mem_cons, List.not_mem_nil, or_false, not_or, List.nodup_nil, not_false_eq_true, and_true]
    refine ⟨⟨?_, ?_, ?_, ?_, ?_⟩, ⟨?_, ?_, ?_, ?_⟩, ⟨?_, ?_, ?_⟩, ⟨?_, ?_⟩, ?_⟩ <;> exact tag_ne (by decide)
  have there1 : ∀ n ∈ names, w1.dirs (temp ++ [n]) = true := fun n hn => (d1 _).2 (.inl ⟨n, hn, rfl⟩)
  have deep1 : ∀ n, ∀ rel, rel ≠ [] → w1.dirs (temp ++ [n] ++ rel) = false := by
    intro n rel hrel
    rw [Bool.eq_false_iff]
    intro h
    rcases (d1 _).1 h with ⟨m, _, e⟩ | h
    · have h1 := congrArg List.length e
      have h2 : 0 < rel.length := List.length_pos_iff.2 hrel
      simp only [List.length_append, List.length_cons, List.length_nil] at h1
      omega
    · rw [List.append_assoc, (hnew _ (by simp)).2] at h
      exact nomatch h
  obtain ⟨dir, name, stem, hpath, hlower⟩ := hs.name
  have hfn : fileName path = name := by rw [hpath]; unfold fileName; rw [List.getLast?_concat]; rfl
  have s1 : w1.files path = some data := by rw [f1]; exact hs.file
  have c1 := copyFile_there (site := site) hk.copies (dir := temp ++ [base ++ "_le"]) (name := name) s1 (there1 _ (by simp [names]))
    (deep1 _ [name] (by simp))
  have t2 := setFile_tree t1 (dir := temp ++ [base ++ "_le"]) (name := name) data (there1 _ (by simp [names])) (deep1 _ [name] (by simp))
  have fin2 := setFile_finite fin1 (temp ++ [base ++ "_le"] ++ [name]) (some data)
  generalize hw2 : w1.setFile (temp ++ [base ++ "_le"] ++ [name]) (some data) = w2 at c1 t2 fin2
  have dd2 : w2.dirs = w1.dirs := by rw [← hw2]; rfl
  have f2 : ∀ q, q ≠ temp ++ [base ++ "_le"] ++ [name] → w2.files q = w1.files q := fun q h => by rw [← hw2]; exact setFile_ne h
  have l2 : w2.files (temp ++ [base ++ "_le"] ++ [name]) = some data := by rw [← hw2]; exact setFile_self
  have s2 : w2.files path = some data := by
    by_cases h : path = temp ++ [base ++ "_le"] ++ [name]
    · rw [h]; exact l2
    · rw [f2 _ h]; exact s1
  have c2 := copyFile_there (site := site) hk.copies (dir := temp ++ [base ++ "_be"]) (name := name) s2
    (by rw [dd2]; exact there1 _ (by simp [names])) (by rw [dd2]; exact deep1 _ [name] (by simp))
  have t3 := setFile_tree t2 (dir := temp ++ [base ++ "_be"]) (name := name) data (by rw [dd2]; exact there1 _ (by simp [names]))
    (by rw [dd2]; exact deep1 _ [name] (by simp))
  have fin3 := setFile_finite fin2 (temp ++ [base ++ "_be"] ++ [name]) (some data)
  generalize hw3 : w2.setFile (temp ++ [base ++ "_be"] ++ [name]) (some data) = w3 at c2 t3 fin3
  have dd3 : w3.dirs = w1.dirs := by rw [← dd2, ← hw3]; rfl
  have f3 : ∀ q, q ≠ temp ++ [base ++ "_be"] ++ [name] → w3.files q = w2.files q := fun q h => by rw [← hw3]; exact setFile_ne h
  have hlb : temp ++ [base ++ "_le"] ++ [name] ≠ temp ++ [base ++ "_be"] ++ [name] := by
    intro e
    have := List.append_inj_right' (List.append_inj_left' e rfl) rfl
    exact tag_ne (by decide) (List.cons.inj this).1
  have l3 : w3.files (temp ++ [base ++ "_le"] ++ [name]) = some data := by rw [f3 _ hlb]; exact l2
  have b3 : w3.files (temp ++ [base ++ "_be"] ++ [name]) = some data := by rw [← hw3]; exact setFile_self
  let d : Dirs := ⟨temp ++ [base ++ "_transform_le"], temp ++ [base ++ "_transform_be"], temp ++ [base ++ "_untransform_le"],
    temp ++ [base ++ "_untransform_be"]⟩
  have hother : ∀ p ∈ [d.transformLe, d.transformBe, d.untransformLe, d.untransformBe],
      ∃ n ∈ names, p = temp ++ [n] ∧ n ≠ base ++ "_le" ∧ n ≠ base ++ "_be" := by
    intro p hp
    simp only [d, List.mem_cons, List.not_mem_nil, or_false] at hp
    rcases hp with rfl | rfl | rfl | rfl <;> refine ⟨_, ?_, rfl, ?_, ?_⟩
    all_goals first | exact tag_ne (by decide) | simp [names]
  have hfresh : Fresh w3 d := by
    refine ⟨fun p hp => ?_, fun p hp rel hrel => ?_, ?_⟩
    · obtain ⟨n, hn, rfl, _⟩ := hother p hp
      rw [dd3]; exact there1 n hn
    · obtain ⟨n, hn, rfl, hn1, hn2⟩ := hother p hp
      refine ⟨?_, by rw [dd3]; exact deep1 n rel hrel⟩
      have hne : ∀ m, n ≠ m → temp ++ [n] ++ rel ≠ temp ++ [m] ++ [name] := by
        intro m hm e
        rw [List.append_assoc, List.append_assoc] at e
        have := List.append_cancel_left e
        exact hm (List.cons.inj this).1
      rw [f3 _ (hne _ hn2), f2 _ (hne _ hn1), f1, List.append_assoc]
      exact (hnew _ (by simp)).1
    · have : [d.transformLe, d.transformBe, d.untransformLe, d.untransformBe] = (names.drop 2).map fun n => temp ++ [n] := rfl
      rw [this]
      refine List.Nodup.map (fun a b h => ?_) ((List.drop_sublist 2 names).nodup hnodup)
      exact (List.cons.inj (List.append_cancel_left h)).1
  obtain ⟨ext, hext, hx⟩ := hs.ext
  have hext' : IsExtension site.os [name] ext := by
    obtain ⟨e, he⟩ := extension_exists site.os [name]
    have e1 := extension_spec (extension_move he dir)
    rw [hpath] at hext
    rw [extension_spec hext] at e1
    rwa [e1]
  have hrun : ∀ x, testFile site.toLab (temp ++ [base ++ "_le"] ++ [name]) (temp ++ [base ++ "_be"] ++ [name]) d w3 = x →
      testIn site temp path w = x := by
    intro x hx
    unfold testIn
    rw [hbase]
    dsimp only
    rw [show [temp ++ [base ++ "_le"], temp ++ [base ++ "_be"], temp ++ [base ++ "_transform_le"], temp ++ [base ++ "_transform_be"],
      temp ++ [base ++ "_untransform_le"], temp ++ [base ++ "_untransform_be"]] = names.map fun n => temp ++ [n] from rfl, r1, hfn]
    dsimp only
    rw [c1]
    dsimp only
    rw [c2]
    exact hx
  by_cases hcomp : headerSize data + reckoned data ≤ data.length
  · obtain ⟨w', h, _⟩ := C70_passes hs.tested ⟨hs.dds, hs.format, hcomp⟩ hlen site.toLab hwill.toObliging hk.wideLe hk.wideBe hk.uncheckedLe
      hk.uncheckedBe hk.fuel hk.works w3 t3 d hfresh (temp ++ [base ++ "_le"]) (temp ++ [base ++ "_be"]) name ext hext' hx l3 b3
      fun w' hn => hk.disk w' (near_tree t3 hfresh hn) (near_finite fin3 hn)
    exact ⟨w', _, hrun _ h, by simp [TestResult.isSuccess, hcomp]⟩
  · obtain ⟨w', h⟩ := testFile_truncated hs.tested hs.dds hs.format (by omega) hlen site.toLab hwill.toObliging hk.wideLe hk.uncheckedLe
      hk.works w3 t3 d hfresh (temp ++ [base ++ "_le"]) (temp ++ [base ++ "_be"] ++ [name]) name ext hext' hx l3
    exact ⟨w', _, hrun _ h, by simp [TestResult.isSuccess, hcomp]⟩

theorem runSingle_result {E : Type} {site : Site Unit E} {w0 : World Unit} (hk : Kind site w0) (ht : IsTree w0) (hfin : Finitely w0)
    (hroot : w0.dirs site.root = true) (htmp : w0.files (site.root ++ ["tmp"]) = none) {w : World Unit} (hsame : Same (site.root ++ ["tmp"]) w0 w)
    {path : Path} {f : DebugIo.Format} {data : Buf} (hs : Suitable site.os w0 path f data) :
    ∃ w' r, runSingleEndianTest site path w = (w', some (.ok r)) ∧ Same (site.root ++ ["tmp"]) w0 w' ∧
      (r.isSuccess = true ↔ headerSize data + reckoned data ≤ data.length) := by
  have hwill := (hk.willing _ _ hs.file).1
  have t0 := addDir_tree ht hroot htmp
  have ff0 := addDir_finite hfin (site.root ++ ["tmp"])
  have hw : IsTree w ∧ w.dirs site.root = true ∧ (addDir w (site.root ++ ["tmp"])).dirs = (addDir w0 (site.root ++ ["tmp"])).dirs := by
    obtain ⟨h1, h2 | h2⟩ := hsame
    · refine ⟨⟨fun p x h => ?_, fun p h => ?_⟩, ?_, ?_⟩
      · rw [h1, h2] at h; rw [h2]; exact ht.parent p x h
      · rw [h2] at h; rw [h1]; exact ht.notBoth p h
      · rw [h2]; exact hroot
      · unfold addDir; rw [h2]
    · refine ⟨⟨fun p x h => ?_, fun p h => ?_⟩, ?_, ?_⟩
      · rw [h1, h2] at h; rw [h2]; exact t0.parent p x h
      · rw [h2] at h; rw [h1]; exact t0.notBoth p h
      · rw [h2]; exact addDir_iff.2 (.inr hroot)
      · funext q
        unfold addDir
        rw [h2]
        unfold addDir
        dsimp only
        split <;> rfl
  obtain ⟨tw, hr, hdirs⟩ := hw
  have hfiles : w.files = w0.files := hsame.1
  unfold runSingleEndianTest
  rw [run_createDirAll_new _ tw hr (by rw [hfiles]; exact htmp) (hwill.canMkdir _)]
  have t1 := addDir_tree tw hr (x := "tmp") (by rw [hfiles]; exact htmp)
  have fin1 : Finitely (addDir w (site.root ++ ["tmp"])) := by
    obtain ⟨l, hl⟩ := ff0
    refine ⟨l, fun q hq => hl q ?_⟩
    rw [isThere_iff] at hq ⊢
    rw [hdirs] at hq
    rw [show (addDir w (site.root ++ ["tmp"])).files = w0.files from hfiles] at hq
    exact hq
  have hd1 : (addDir w (site.root ++ ["tmp"])).dirs (site.root ++ ["tmp"]) = true := addDir_iff.2 (.inl rfl)
  have hf1 : (addDir w (site.root ++ ["tmp"])).files = w0.files := hfiles
  generalize addDir w (site.root ++ ["tmp"]) = w1 at t1 fin1 hd1 hdirs hf1
  obtain ⟨name, hname, hnot⟩ := hk.temp w1 fin1
  have hb := below_new t1 hnot
  have hfn : w1.files (site.root ++ ["tmp"] ++ [name]) = none := by simpa using (hb []).1
  have t2 := addDir_tree t1 hd1 hfn
  have fin2 := addDir_finite fin1 (site.root ++ ["tmp"] ++ [name])
  have hs2 : Suitable site.os (addDir w1 (site.root ++ ["tmp"] ++ [name])) path f data :=
    ⟨by rw [show (addDir w1 (site.root ++ ["tmp"] ++ [name])).files = w0.files from hf1]; exact hs.file, hs.name, hs.ext, hs.tested, hs.dds,
      hs.format⟩
  have hnew : ∀ rel, rel ≠ [] → (addDir w1 (site.root ++ ["tmp"] ++ [name])).files (site.root ++ ["tmp"] ++ [name] ++ rel) = none ∧
      (addDir w1 (site.root ++ ["tmp"] ++ [name])).dirs (site.root ++ ["tmp"] ++ [name] ++ rel) = false := by
    intro rel hrel
    refine ⟨(hb rel).1, ?_⟩
    refine (if_neg ?_).trans (hb rel).2
    intro e
    exact hrel (List.append_cancel_left (e.trans (List.append_nil _).symm))
  have hdt : (addDir w1 (site.root ++ ["tmp"] ++ [name])).dirs (site.root ++ ["tmp"] ++ [name]) = true := addDir_iff.2 (.inl rfl)
  obtain ⟨w', r, h1, h2⟩ := testIn_result hk t2 fin2 hdt hnew hs2 hs.file
  have hkept := testIn_kept (site := site) (temp := site.root ++ ["tmp"] ++ [name]) (path := path)
    (w := addDir w1 (site.root ++ ["tmp"] ++ [name])) (by
      rintro q ⟨t, hq⟩
      exact t2.dirs_up q t (by rw [hq]; exact hdt))
  rw [h1] at hkept
  refine ⟨dropTemp site (site.root ++ ["tmp"] ++ [name]) w', r, ?_, ⟨?_, .inr ?_⟩, h2⟩
  · change (match site.tempName w1 with | none => _ | some name => _) = _
    rw [hname]
    dsimp only
    rw [hnot, if_neg (by simp)]
    change (dropTemp site _ (testIn site _ path (addDir w1 _)).1, (testIn site _ path (addDir w1 _)).2) = _
    rw [h1]
  · funext q
    unfold dropTemp
    dsimp only
    rw [hk.stays, ← hf1]
    by_cases hq : (site.root ++ ["tmp"] ++ [name]) <+: q
    · rw [if_pos (by simpa using hq)]
      obtain ⟨rel, rfl⟩ := hq
      exact (hb rel).1.symm
    · rw [if_neg (by simpa using hq)]
      exact hkept.files q hq
  · funext q
    unfold dropTemp
    dsimp only
    rw [hk.stays, ← hdirs]
    by_cases hq : (site.root ++ ["tmp"] ++ [name]) <+: q
    · rw [if_pos (by simpa using hq)]
      obtain ⟨rel, rfl⟩ := hq
      exact (hb rel).2.symm
    · rw [if_neg (by simpa using hq)]
      refine (hkept.dirs q hq).trans (if_neg ?_)
      rintro rfl
      exact hq (List.prefix_refl _)

/-! ## The command -/

theorem testAll_result {E : Type} {site : Site Unit E} {w0 : World Unit} (hk : Kind site w0) (ht : IsTree w0) (hfin : Finitely w0)
    (hroot : w0.dirs site.root = true) (htmp : w0.files (site.root ++ ["tmp"]) = none) :
    ∀ (files : List Path) (w : World Unit), Same (site.root ++ ["tmp"]) w0 w → (∀ p ∈ files, ∃ f data, Suitable site.os w0 p f data) →
      ∃ w' rs, testAll site files w = (w', some (.ok rs)) ∧ Same (site.root ++ ["tmp"]) w0 w' ∧
        ((∀ r ∈ rs, r.isSuccess = true) ↔ ∀ p ∈ files, ∀ data, w0.files p = some data → headerSize data + reckoned data ≤ data.length)
  | [], w, h, _ => ⟨w, [], rfl, h, by simp⟩
  | p :: rest, w, h, hs => by
    obtain ⟨f, data, hs0⟩ := hs p (by simp)
    obtain ⟨w1, r, h1, h2, h3⟩ := runSingle_result hk ht hfin hroot htmp h hs0
    obtain ⟨w2, rs, h4, h5, h6⟩ := testAll_result hk ht hfin hroot htmp rest w1 h2 fun q hq => hs q (List.mem_cons_of_mem _ hq)
    refine ⟨w2, r :: rs, ?_, h5, ?_⟩
    · unfold testAll
      rw [h1]
      dsimp only
      rw [h4]
    · simp only [List.mem_cons, forall_eq_or_imp, h6, h3, hs0.file, Option.some.injEq, forall_eq']

/-- **C77** (verdict): if the tools work and the system refuses nothing, the command ends.  It succeeds if each test file holds as many bytes as its
header announces, and reports failed tests otherwise.  Whatever the machines' byte orders are, it finds no difference.  Afterwards all files are as
before, and there is at most one more directory, `tmp`. -/
theorem C77_verdict {E : Type} (site : Site Unit E) (w : World Unit) (ht : IsTree w) (hfin : Finitely w) (hk : Kind site w)
    (hls : Shows site.ls w) (hw : Wide site.host) (hoc : site.host.overflowChecks = false)
    (htests : w.dirs (site.root ++ ["assets"] ++ ["tests"]) = true) (hdepth : ∀ q, w.dirs q = true → q.length ≤ site.depth)
    (htmp : w.files (site.root ++ ["tmp"]) = none) :
    ∃ w' r, handleDebugCommand site true w = (w', some r) ∧
      ((∀ p f data, (site.root ++ ["assets"] ++ ["tests"]) <+: p → Suitable site.os w p f data → headerSize data + reckoned data ≤ data.length) →
        r = .ok ()) ∧
      (∀ p f data, (site.root ++ ["assets"] ++ ["tests"]) <+: p → Suitable site.os w p f data → data.length < headerSize data + reckoned data →
        r = .error .testsFailed) ∧
      w'.files = w.files ∧ ∀ q, q ≠ site.root ++ ["tmp"] → w'.dirs q = w.dirs q := by
  obtain ⟨files, h1, _, _, h2⟩ := C77_test_files site w ht hls hw hoc htests hdepth fun q b hb => (hk.willing q b hb).1.mayRead q
  have hroot : w.dirs site.root = true := ht.dirs_up site.root (["assets"] ++ ["tests"]) (by rw [← List.append_assoc]; exact htests)
  obtain ⟨w', rs, h3, h4, h5⟩ := testAll_result hk ht hfin hroot htmp files w ⟨rfl, .inl rfl⟩ fun p hp => ((h2 p).1 hp).2
  have hv : reportOk rs = true ↔ ∀ r ∈ rs, r.isSuccess = true := by
    rw [(C70_verdict rs).1]
    simp only [TestResult.isSuccess, Bool.and_eq_true, and_assoc]
  refine ⟨w', if reportOk rs then .ok () else .error .testsFailed, ?_, fun hall => ?_, fun p f data hp hs hshort => ?_, h4.1, fun q hq => ?_⟩
  · unfold handleDebugCommand runAllEndianTests
    rw [h1]
    simp only [if_true, h3]
  · rw [if_pos]
    rw [hv, h5]
    intro p hp data hd
    obtain ⟨hpre, f, data', hs⟩ := (h2 p).1 hp
    rw [hs.file] at hd
    cases hd
    exact hall p f _ hpre hs
  · rw [if_neg]
    rw [hv, h5]
    intro h
    have := h p ((h2 p).2 ⟨hp, f, data, hs⟩) data hs.file
    omega
  · rcases h4.2 with h | h
    · rw [h]
    · rw [h]; exact if_neg hq

/-! ## Names -/

theorem split_unique {α : Type} {x : α} : ∀ {a a' b b' : List α}, x ∉ a → x ∉ a' → a ++ x :: b = a' ++ x :: b' → a = a' ∧ b = b'
  | [], [], _, _, _, _, h => ⟨rfl, (List.cons.inj h).2⟩
  | [], y :: _, _, _, _, h2, h => absurd (by rw [(List.cons.inj h).1]; simp) h2
  | y :: _, [], _, _, h1, _, h => absurd (by rw [← (List.cons.inj h).1]; simp) h1
  | y :: a, z :: a', b, b', h1, h2, h => by
    obtain ⟨e1, e2⟩ := List.cons.inj h
    obtain ⟨e3, e4⟩ := split_unique (fun h => h1 (List.mem_cons_of_mem _ h)) (fun h => h2 (List.mem_cons_of_mem _ h)) e2
    exact ⟨by rw [e1, e3], e4⟩

theorem digits_inj {m n : Nat} (h : Nat.toDigits 10 m = Nat.toDigits 10 n) : m = n := by
  rw [← Nat.ofDigitChars_ten_toDigits (n := m), h, Nat.ofDigitChars_ten_toDigits]

/-- **C77** (names): making a name panics exactly if the clock stands before 1970.  Two names with the same prefix are equal exactly if the times
at which they were made, the processes, and the sums of the nanoseconds of the second time and the thread's number are equal. -/
theorem C77_names (pre : String) (n n' nl nl' : Option Nat) (pid pid' : Nat) (t t' : BitVec 32) :
    (generateRandomDirName pre n nl pid t = none ↔ n = none ∨ nl = none) ∧
    ∀ a a' b b', n = some a → n' = some a' → nl = some b → nl' = some b' →
      (generateRandomDirName pre n nl pid t = generateRandomDirName pre n' nl' pid' t' ↔
        a = a' ∧ pid = pid' ∧ (b % 10 ^ 9 + t.toNat) % 2 ^ 32 = (b' % 10 ^ 9 + t'.toNat) % 2 ^ 32) := by
  constructor
  · unfold generateRandomDirName randSuffix
    rcases n with _ | n <;> rcases nl with _ | nl <;> simp
  · rintro a a' b b' rfl rfl rfl rfl
    have hs : ∀ (b : Nat) (t : BitVec 32), (BitVec.ofNat 32 (b % 1000000000) + t).toNat = (b % 10 ^ 9 + t.toNat) % 2 ^ 32 := by
      intro b t
      rw [BitVec.toNat_add, BitVec.toNat_ofNat, Nat.mod_eq_of_lt (a := b % 1000000000) (by omega)]
      rfl
    unfold generateRandomDirName randSuffix
    simp only [Option.map_some, Option.some.injEq, hs]
    constructor
    · intro h
      have h := congrArg String.toList h
      simp only [String.toList_append, Nat.toString_eq_repr, Nat.toList_repr, List.append_assoc] at h
      have h := List.append_cancel_left h
      have h := List.append_cancel_left h
      obtain ⟨e1, h⟩ := split_unique Nat.underscore_not_in_toDigits Nat.underscore_not_in_toDigits h
      obtain ⟨e2, h⟩ := split_unique Nat.underscore_not_in_toDigits Nat.underscore_not_in_toDigits h
      exact ⟨digits_inj e1, digits_inj e2, digits_inj h⟩
    · rintro ⟨rfl, rfl, h⟩
      rw [h]

/-! ## An example -/

/-- There is a name for a new entry. -/
theorem Finitely.free {w : World Unit} (h : Finitely w) (dir : Path) : ∃ name, isThere w (dir ++ [name]) = false := by
  obtain ⟨l, hl⟩ := h
  refine ⟨String.ofList (List.replicate ((l.map fun q => (fileName q).length).sum + 1) 'x'), ?_⟩
  rw [Bool.eq_false_iff]
  intro h
  have hm := List.single_le_sum (by simp) _ (List.mem_map_of_mem (f := fun q => (fileName q).length) (hl _ h))
  unfold fileName at hm
  rw [List.getLast?_concat] at hm
  simp only [Option.getD_some, String.length_ofList, List.length_replicate] at hm
  omega

open Classical in
/-- A system that lists all names, and reads files in one go. -/
noncomputable def siteDisk (w : World Unit) : Disk :=
  { list := if h : Finitely w then fun d => some (Classical.choose h.shows d) else fun _ => none
    stat := fun _ => true, canOpen := fun _ => true, read := fun _ _ => some bufferSize }

theorem siteDisk_helpful (w : World Unit) (ht : IsTree w) (hfin : Finitely w) : Helpful (siteDisk w) w where
  faithful d names h := by
    have hs := Classical.choose_spec hfin.shows
    unfold siteDisk at h
    rw [dif_pos hfin] at h
    rw [← Option.some.inj h]
    exact ⟨hs.names d, fun name hn => (hs.all d (ht.parent d name hn) name).2 ((isThere_iff w _).2 hn)⟩
  list p _ := by
    unfold siteDisk
    rw [dif_pos hfin]
    exact nofun
  healthy _ _ := ⟨rfl, rfl, fun _ => nofun⟩
  portions _ _ := rfl

/-- Two test files, of which one is truncated unless `whole`. -/
def siteWorld (whole : Bool) : World Unit :=
  { files := fun p => if p = ["assets", "tests", "a.dds"] then some smallFile
      else if p = ["assets", "tests", "b.dds"] then some (if whole then smallFile else smallFile.take 130) else none
    dirs := fun p => p ∈ [[], ["assets"], ["assets", "tests"]], counter := 0, st := () }

open Classical in
/-- A workspace at the root of the file system; the second machine is big endian. -/
noncomputable def someSite : Site Unit Unit :=
  { endianLab with
    diskOf := siteDisk, root := [], host := somePlatform
    ls := fun d => if d = [] then ["assets"] else if d = ["assets"] then ["tests"] else if d = ["assets", "tests"] then ["b.dds", "a.dds"] else []
    depth := 2, tool := fun _ => some true
    tempName := fun w => if h : Finitely w then some (Classical.choose (h.free ["tmp"])) else none
    nanos := fun _ => some 0, nanosLater := fun _ => some 1, pid := 7, threadNum := 1#32, copies := fun _ _ => true
    leaves := fun _ _ b => b, stays := fun _ => false }

theorem site_dirs {whole : Bool} {p : Path} (h : (siteWorld whole).dirs p = true) : p = [] ∨ p = ["assets"] ∨ p = ["assets", "tests"] := by
  simpa [siteWorld] using h

theorem site_files {whole : Bool} {p : Path} (h : ((siteWorld whole).files p).isSome = true) :
    p = ["assets", "tests", "a.dds"] ∨ p = ["assets", "tests", "b.dds"] := by
  unfold siteWorld at h
  dsimp only at h
  by_cases h1 : p = ["assets", "tests", "a.dds"]
  · exact .inl h1
  · rw [if_neg h1] at h
    by_cases h2 : p = ["assets", "tests", "b.dds"]
    · exact .inr h2
    · rw [if_neg h2] at h
      exact nomatch h

theorem concat_eq_three {p : Path} {x a b c : String} (h : p ++ [x] = [a, b, c]) : p = [a, b] ∧ x = c := by
  have h' : p ++ [x] = [a, b] ++ [c] := h
  exact ⟨List.append_inj_left' h' rfl, (List.cons.inj (List.append_inj_right' h' rfl)).1⟩

theorem site_tree (whole : Bool) : IsTree (siteWorld whole) where
  parent p x h := by
    rcases h with h | h
    · rcases site_files h with h | h <;> (rw [(concat_eq_three h).1]; rfl)
    · rcases site_dirs h with h | h | h
      · simp at h
      · rw [(concat_eq_one h).1]; rfl
      · rw [(concat_eq_two h).1]; rfl
  notBoth p h := by
    rcases site_dirs h with rfl | rfl | rfl <;> rfl

theorem site_finite (whole : Bool) : Finitely (siteWorld whole) := by
  refine ⟨[[], ["assets"], ["assets", "tests"], ["assets", "tests", "a.dds"], ["assets", "tests", "b.dds"]], fun q hq => ?_⟩
  rcases (isThere_iff _ _).1 hq with h | h
  · rcases site_files h with rfl | rfl <;> simp
  · rcases site_dirs h with rfl | rfl | rfl <;> simp

theorem site_contents {whole : Bool} {q : Path} {b : Buf} (h : (siteWorld whole).files q = some b) :
    (q = ["assets", "tests", "a.dds"] ∧ b = smallFile) ∨
    (q = ["assets", "tests", "b.dds"] ∧ b = if whole then smallFile else smallFile.take 130) := by
  rcases site_files (by rw [h]; rfl) with rfl | rfl
  · exact .inl ⟨rfl, (Option.some.inj h).symm⟩
  · exact .inr ⟨rfl, (Option.some.inj h).symm⟩

theorem open_willing {n : Nat} (h : n ≤ openOs.usizeMax) : Willing openOs n :=
  { canOpen := fun _ => rfl, canSize := fun _ => rfl, canMap := fun _ => rfl, canMapWrite := fun _ => rfl,
    create := fun _ _ => ⟨_, rfl, by simp⟩, fits := h, canMkdir := fun _ => rfl }

theorem site_kind (whole : Bool) : Kind someSite (siteWorld whole) where
  works := ⟨fun _ _ _ => rfl, fun _ => rfl, fun _ => rfl⟩
  willing q b h := by
    have : b.length ≤ 200 := by
      rcases site_contents h with ⟨_, rfl⟩ | ⟨_, rfl⟩
      · decide +kernel
      · cases whole <;> decide +kernel
    exact ⟨open_willing (Nat.le_trans this (by decide +kernel)), by omega⟩
  wideLe := by unfold Wide; decide
  wideBe := by unfold Wide; decide
  uncheckedLe := rfl
  uncheckedBe := rfl
  fuel := Nat.le_refl _
  disk w' ht hfin := siteDisk_helpful w' ht hfin
  temp w' hfin := by
    refine ⟨Classical.choose (hfin.free ["tmp"]), ?_, Classical.choose_spec (hfin.free ["tmp"])⟩
    exact dif_pos hfin
  clock _ := ⟨rfl, rfl⟩
  copies _ _ := rfl
  stays _ := rfl

theorem site_shows (whole : Bool) : Shows someSite.ls (siteWorld whole) where
  names d := by
    change (if d = [] then ["assets"] else if d = ["assets"] then ["tests"] else if d = ["assets", "tests"] then ["b.dds", "a.dds"] else []).Nodup
    split
    · simp
    · split
      · simp
      · split <;> simp
  all d hd name := by
    rw [isThere_iff]
    change name ∈ (if d = [] then ["assets"] else if d = ["assets"] then ["tests"] else if d = ["assets", "tests"] then ["b.dds", "a.dds"] else []) ↔ _
    rcases site_dirs hd with rfl | rfl | rfl
    · simp [siteWorld]
    · simp [siteWorld]
    · simp only [siteWorld]
      by_cases h1 : name = "a.dds" <;> by_cases h2 : name = "b.dds" <;> simp [h1, h2]

theorem site_suitable (whole : Bool) {name : String} {data : Buf} (hn : name = "a.dds" ∨ name = "b.dds")
    (h : (siteWorld whole).files ["assets", "tests", name] = some data) (hdds : IsDds data) (hc : classify data = ddsName .bc1) :
    Suitable someSite.os (siteWorld whole) ["assets", "tests", name] .bc1 data where
  file := h
  name := by
    rcases hn with rfl | rfl
    · exact ⟨["assets", "tests"], "a.dds", "a", rfl, rfl⟩
    · exact ⟨["assets", "tests"], "b.dds", "b", rfl, rfl⟩
  ext := by
    rcases hn with rfl | rfl
    · exact ⟨some "dds", .inl ⟨["assets", "tests"], ['a'], ['d', 'd', 's'], rfl, by simp, by decide, by simp, rfl⟩, .inr rfl⟩
    · exact ⟨some "dds", .inl ⟨["assets", "tests"], ['b'], ['d', 'd', 's'], rfl, by simp, by decide, by simp, rfl⟩, .inr rfl⟩
  tested := .bc1
  dds := hdds
  format := hc

/-- Non-vacuity of `C77_verdict`: with two whole files the command succeeds. -/
example : ∃ w', handleDebugCommand someSite true (siteWorld true) = (w', some (.ok ())) := by
  obtain ⟨w', r, h1, h2, _⟩ := C77_verdict someSite (siteWorld true) (site_tree true) (site_finite true) (site_kind true) (site_shows true)
    (by unfold Wide; decide) rfl rfl (fun q hq => by rcases site_dirs hq with rfl | rfl | rfl <;> decide) rfl
  rw [h1, h2 fun p f data _ hs => by rcases site_contents hs.file with ⟨_, rfl⟩ | ⟨_, rfl⟩ <;> decide +kernel]
  exact ⟨w', rfl⟩

/-- Non-vacuity of `C77_nothing_tested`: the test files are there, but cannot be listed. -/
example : handleDebugCommand { someSite with ls := fun _ => [] } true (siteWorld false) = (siteWorld false, some (.ok ())) :=
  C77_nothing_tested _ _ rfl (by decide)

/-- Non-vacuity of `C77_verdict`: a truncated file makes it fail. -/
example : ∃ w', handleDebugCommand someSite true (siteWorld false) = (w', some (.error .testsFailed)) := by
  obtain ⟨w', r, h1, _, h2, _⟩ := C77_verdict someSite (siteWorld false) (site_tree false) (site_finite false) (site_kind false)
    (site_shows false) (by unfold Wide; decide) rfl rfl (fun q hq => by rcases site_dirs hq with rfl | rfl | rfl <;> decide) rfl
  rw [h1, h2 ["assets", "tests", "b.dds"] .bc1 (smallFile.take 130) ⟨["b.dds"], rfl⟩
    (site_suitable false (.inr rfl) rfl (by decide +kernel) (by decide +kernel)) (by decide +kernel)]
  exact ⟨w', rfl⟩

end Dlt.Props
