import Verif.Props.Cli
/-!
# C60: a directory there and back
-/

namespace Dlt.Props

open Dlt.FileFormats Dlt.FileIo Dlt.FileIo.Prog Dlt.Cli Dlt.Dds

variable {α β E : Type}

/-- Making directories: if they are there or can be made the work is done with them, otherwise there is an error. -/
theorem createDirAll_cases (os : Os) (k : Prog Unit (Except FileError α)) :
    ∀ (rest : List String) (base : Path) (w : World Unit),
      ((∀ q, base <+: q → q <+: base ++ rest → dirOk os w q = true) → ∃ w', run os (createDirAll base rest k) w = run os k w' ∧
        w'.files = w.files ∧ ∀ q, w'.dirs q = true ↔ w.dirs q = true ∨ (base <+: q ∧ q <+: base ++ rest)) ∧
      ((∃ w' e, run os (createDirAll base rest k) w = (w', some (.error e))) ∨
        ∃ w', run os (createDirAll base rest k) w = run os k w' ∧ w'.files = w.files)
  | [], base, w => by
    unfold createDirAll try'
    rw [run_op, exec_mkdir]
    by_cases hd : dirOk os w base = true
    · rw [if_pos hd]
      refine ⟨fun _ => ⟨_, rfl, rfl, fun q => ?_⟩, .inr ⟨_, rfl, rfl⟩⟩
      dsimp only
      constructor
      · split
        · next h => subst h; exact fun _ => .inr (by simp)
        · exact .inl
      · rintro (h | ⟨h1, h2⟩)
        · split <;> simp [h]
        · rw [List.append_nil] at h2
          rw [if_pos (h2.eq_of_length_le h1.length_le)]
    · rw [if_neg hd]
      refine ⟨fun h => absurd (h base (by simp) (by simp)) hd, .inl ⟨_, _, rfl⟩⟩
  | name :: rest, base, w => by
    unfold createDirAll try'
    rw [run_op, exec_mkdir]
    by_cases hd : dirOk os w base = true
    · rw [if_pos hd]
      obtain ⟨h1, h2⟩ := createDirAll_cases os k rest (base ++ [name])
        { w with dirs := fun q => if q = base then true else w.dirs q }
      refine ⟨fun h => ?_, h2⟩
      obtain ⟨w', a, b, c⟩ := h1 fun q hq hq' => by
        rw [dirOk_mkdir hd]
        exact h q ((List.prefix_append _ _).trans hq) (by simpa using hq')
      refine ⟨w', a, b, fun q => ?_⟩
      rw [c q]
      dsimp only
      constructor
      · rintro (h | ⟨h1, h2⟩)
        · split at h
          · next hq => subst hq; exact .inr ⟨by simp, by simp⟩
          · exact .inl h
        · exact .inr ⟨(List.prefix_append _ _).trans h1, by simpa using h2⟩
      · rintro (h | ⟨h1, h2⟩)
        · left; split <;> simp [h]
        · by_cases hq : q = base
          · left; simp [hq]
          · right
            obtain ⟨t, rfl⟩ := h1
            have ht : t ≠ [] := by rintro rfl; simp at hq
            rw [List.prefix_append_right_inj] at h2
            match t, ht with
            | x :: t, _ =>
              rw [List.cons_prefix_cons] at h2
              obtain ⟨hx, h5⟩ := h2
              subst hx
              refine ⟨⟨t, by simp⟩, ?_⟩
              rw [show base ++ x :: t = (base ++ [x]) ++ t by simp, List.prefix_append_right_inj]
              exact h5
    · rw [if_neg hd]
      refine ⟨fun h => absurd (h base (by simp) (by simp)) hd, .inl ⟨_, _, rfl⟩⟩

theorem intoFile_ok {os : Os} (hwf : os.Wf) {p : Path} {n : Nat} {f : Buf → Unit → Option (Res Unit α)} {w w' : World Unit}
    {a : α} (hlen : ∀ fresh o st r, fresh.length = n → f fresh () = some (o, st, r) → o.length = n)
    (h : run os (intoFile p n f) w = (w', some (.ok a))) :
    ∃ fresh o st, fresh.length = n ∧ o.length = n ∧ f fresh () = some (o, st, .ok a) ∧ w'.files p = some o := by
  by_cases hd : (w.dirs p.dropLast && !w.dirs p) = true
  · rcases hc : os.create p n (w.files p) with ⟨c, ok⟩
    cases ok with
    | false => simp [intoFile, try', run, exec, hd, hc] at h
    | true =>
      have := hwf p n (w.files p) (by rw [hc])
      rw [hc] at this
      obtain ⟨fresh, rfl, hl⟩ := this
      by_cases hm : os.canMapWrite p n = true
      · rw [Bool.and_eq_true, Bool.not_eq_true'] at hd
        have hcr : Creatable os w p n fresh := ⟨hd.1, hd.2, hc, hl, hm⟩
        obtain ⟨h1, h2⟩ := run_intoFile hcr f
        rcases hf : f fresh w.st with _ | ⟨o, st, r⟩
        · rw [h1 hf] at h; simp at h
        · have ho := hlen fresh o st r hl hf
          rw [h2 o st r hf ho] at h
          cases r with
          | error e => simp [Except.mapError] at h
          | ok b =>
            simp only [Except.mapError, Prod.mk.injEq, Option.some.injEq, Except.ok.injEq] at h
            obtain ⟨rfl, rfl⟩ := h
            exact ⟨fresh, o, st, hl, ho, hf, by simp [World.after]⟩
      · simp [intoFile, try', run, exec, hd, hc, hm, World.setFile] at h
  · simp [intoFile, try', run, exec, hd] at h

/-- A DDS file that the tool has transformed with success. -/
theorem transform_file_ok {os : Os} (hwf : os.Wf) {p : Platform} (hu : 2 ^ 32 - 1 ≤ p.env.usizeMax) {dbg : E → String}
    {bundle : Bundle Unit E} {inp out : Path} (hne : inp ≠ out) {w w' : World Unit} {h : Handler Unit E} {data : Buf}
    (hd : w.files inp = some data) (hfit : data.length ≤ os.usizeMax)
    (hr : run os (transformFileWithMultipleHandlers os (allHandlers p dbg) inp out bundle) w = (w', some (.ok h))) :
    ∃ fresh o, fresh.length = data.length ∧ o.length = data.length ∧
      transformSliceWithBundle (handler p dbg) data fresh bundle () = some (o, (), .ok ()) ∧ w'.files out = some o := by
  unfold transformFileWithMultipleHandlers at hr
  rcases withInput_cases os inp (fun input => tryHandlers
      (fun h => h.canHandle input (extractLowercaseExtension os inp))
      (fun h => intoFile out input.length fun output st => if inp = out then none
        else (transformSliceWithBundle h input output bundle st).map fun (o, st, r) => (o, st, r.map fun _ => h))
      (.error (.transform .noSupportedHandler)) (allHandlers p dbg)) w with ⟨e, h⟩ | ⟨d, n, hd', rfl, h⟩
  · rw [h] at hr; simp at hr
  · obtain rfl : d = data := Option.some.inj (hd'.symm.trans hd)
    rw [Nat.mod_eq_of_lt (by omega), List.take_length] at h
    rw [h, allHandlers, tryHandlers, run_op] at hr
    simp only [exec] at hr
    rcases hc : (handler (E := E) p dbg).canHandle d (extractLowercaseExtension os inp) () with _ | ⟨st, yes⟩
    · rw [hc] at hr; simp at hr
    · rw [hc] at hr
      cases yes with
      | false => simp [tryHandlers, run] at hr
      | true =>
        dsimp only at hr
        rw [if_pos rfl] at hr
        obtain ⟨fresh, o, st, h1, h2, h3, h4⟩ := intoFile_ok hwf (fun fresh o st r hl hf => by
          rw [if_neg hne] at hf
          obtain ⟨⟨o', st', r'⟩, ht, hx⟩ := Option.map_eq_some_iff.1 hf
          simp only [Prod.mk.injEq] at hx
          obtain ⟨rfl, _, _⟩ := hx
          unfold transformSliceWithBundle at ht
          rw [if_neg (by omega)] at ht
          have := dds_keeps_length (dbg := dbg) hu ht
          omega) hr
        rw [if_neg hne] at h3
        obtain ⟨⟨o', st', r'⟩, ht, hx⟩ := Option.map_eq_some_iff.1 h3
        cases r' with
        | error e => simp [Except.map] at hx
        | ok u =>
          simp only [Prod.mk.injEq] at hx
          obtain ⟨rfl, _, _⟩ := hx
          exact ⟨fresh, o', h1, h2, ht, h4⟩

theorem job_transform_ok {os : Os} (hwf : os.Wf) {p : Platform} (hu : 2 ^ 32 - 1 ≤ p.env.usizeMax) {dbg : E → String}
    {bundle : Bundle Unit E} {inputDir outputDir rel : Path} (hrel : rel ≠ []) (hne : inputDir ++ rel ≠ outputDir ++ rel)
    {w : World Unit} {n : Nat} {data : Buf} (hd : w.files (inputDir ++ rel) = some data) (hfit : data.length ≤ os.usizeMax)
    (hr : (run os (job (processFileTransform os (allHandlers p dbg) bundle inputDir outputDir (inputDir ++ rel))) w).2 =
      some (.ok n)) :
    n = data.length ∧ ∃ fresh o, fresh.length = data.length ∧ o.length = data.length ∧
      transformSliceWithBundle (handler p dbg) data fresh bundle () = some (o, (), .ok ()) ∧
      (run os (job (processFileTransform os (allHandlers p dbg) bundle inputDir outputDir (inputDir ++ rel))) w).1.files
        (outputDir ++ rel) = some o := by
  rw [run_job] at hr ⊢
  dsimp only at hr ⊢
  unfold processFileTransform processFile at hr ⊢
  rw [stripPrefix_append] at hr ⊢
  dsimp only at hr ⊢
  rw [if_neg (by simp [hrel])] at hr ⊢
  rcases (createDirAll_cases os (.op (.fileLen (inputDir ++ rel)) fun len =>
      (transformFileWithMultipleHandlers os (allHandlers p dbg) (inputDir ++ rel) (outputDir ++ rel) bundle).bind fun r =>
        .ret (r.map fun _ => len.getD 0)) (outputDir ++ rel).dropLast [] w).2 with ⟨w', e, h⟩ | ⟨w', h, hfl⟩
  · rw [h] at hr; simp at hr
  · rw [h, run_op] at hr ⊢
    simp only [exec] at hr ⊢
    rw [run_bind] at hr ⊢
    have hd' : w'.files (inputDir ++ rel) = some data := by rw [hfl]; exact hd
    rcases hrun : run os (transformFileWithMultipleHandlers os (allHandlers p dbg) (inputDir ++ rel) (outputDir ++ rel) bundle)
      w' with ⟨w1, _ | r⟩
    · rw [hrun] at hr; simp at hr
    · rw [hrun] at hr
      cases r with
      | error e => simp [run, Except.map] at hr
      | ok h =>
        simp only [run, Except.map, Option.some.injEq, Except.ok.injEq, hd', Option.map_some, Option.getD_some] at hr
        refine ⟨hr.symm, ?_⟩
        exact transform_file_ok hwf hu hne hd' hfit hrun

/-- The operating system lets a file of `n` bytes be read. -/
def MayRead (os : Os) (p : Path) (n : Nat) : Prop :=
  os.canOpen p = true ∧ os.canSize p = true ∧ os.canMap p n = true ∧ n ≤ os.usizeMax

/-- The operating system lets a file of `n` bytes be written, in directories that exist or can be made. -/
def MayWrite (os : Os) (w : World Unit) (p : Path) (n : Nat) : Prop :=
  (∀ q, q <+: p.dropLast → w.dirs q = true ∨ (w.files q = none ∧ os.canMkdir q = true)) ∧ w.dirs p = false ∧
  (os.create p n (w.files p)).2 = true ∧ os.canMapWrite p n = true

theorem job_untransform_ok {os : Os} (hwf : os.Wf) {p p' : Platform} (hm : p.m.endian = p'.m.endian)
    (hc : p'.overflowChecks = true → p.overflowChecks = true) (hu : 2 ^ 32 - 1 ≤ p.env.usizeMax) {dbg : E → String}
    {bundle : Bundle Unit E} {data fresh o : Buf} (hin : data.length ≤ p'.env.usizeMax) (hfr : fresh.length = data.length)
    (ho : o.length = data.length)
    (ht : transformSliceWithBundle (handler p dbg) data fresh bundle () = some (o, (), .ok ()))
    {inputDir outputDir rel : Path} (hrel : rel ≠ []) (hne : inputDir ++ rel ≠ outputDir ++ rel)
    {w : World Unit} (hf : w.files (inputDir ++ rel) = some o) (hread : MayRead os (inputDir ++ rel) data.length)
    (hwrite : MayWrite os w (outputDir ++ rel) data.length) {ext : Option String} (hx : ext = none ∨ ext = some "dds")
    (hext : IsExtension os (inputDir ++ rel) ext) :
    (run os (job (processFileUntransform os (allHandlers (E := E) p' dbg) inputDir outputDir (inputDir ++ rel))) w).2 =
      some (.ok data.length) ∧
    (run os (job (processFileUntransform os (allHandlers (E := E) p' dbg) inputDir outputDir (inputDir ++ rel))) w).1.files
      (outputDir ++ rel) = some data := by
  rw [run_job]
  dsimp only
  unfold processFileUntransform processFile
  rw [stripPrefix_append]
  dsimp only
  rw [if_neg (by simp [hrel])]
  obtain ⟨hdirs, hnd, hcreate, hmap⟩ := hwrite
  obtain ⟨w', h, hfl, hdr⟩ := (createDirAll_cases os (.op (.fileLen (inputDir ++ rel)) fun len =>
      (untransformFileWithMultipleHandlers os (allHandlers (E := E) p' dbg) (inputDir ++ rel) (outputDir ++ rel)).bind fun r =>
        .ret (r.map fun _ => len.getD 0)) (outputDir ++ rel).dropLast [] w).1 fun q _ hq => by
    unfold dirOk
    rcases hdirs q hq with h | ⟨h1, h2⟩
    · simp [h]
    · simp [h1, h2]
  rw [h, run_op]
  simp only [exec]
  rw [run_bind]
  have hf' : w'.files (inputDir ++ rel) = some o := by rw [hfl]; exact hf
  obtain ⟨h1, h2, h3, h4⟩ := hread
  have hr : Readable os w' (inputDir ++ rel) o := ⟨hf', h1, h2, by rw [ho]; exact h3, by omega⟩
  obtain ⟨fresh', hfresh, hfl'⟩ := hwf _ _ _ hcreate
  have hcr : Creatable os w' (outputDir ++ rel) o.length fresh' := by
    rw [ho]
    refine ⟨(hdr _).2 (.inr (by simp)), ?_, ?_, hfl', hmap⟩
    · rw [Bool.eq_false_iff]
      intro e
      rcases (hdr _).1 e with e | ⟨_, e⟩
      · rw [hnd] at e; exact nomatch e
      · have := e.length_le
        have hp := List.length_pos_iff.2 hrel
        simp at this
        omega
    · rw [hfl]
      exact Prod.ext hfresh hcreate
  obtain ⟨k1, _, ⟨r, k3⟩⟩ := C26_dds_api_roundtrip p p' hm hc hu dbg bundle data fresh o () () () hin hfr ht fresh' hfl'
  obtain ⟨st1, hcan⟩ := one_handler_untransform (by omega) k3
  obtain ⟨_, ⟨hch, _⟩⟩ := C37_file_with_multiple_handlers os w' [handler (E := E) p' dbg] _ _ hne bundle o fresh'
      ext hext hr hcr
  have := hch (handler p' dbg) () ⟨[], [], (), rfl, rfl, (dds_can_handle hx ()).2.trans hcan⟩
  rw [k1] at this
  have hlike := this (by omega)
  unfold allHandlers
  rw [hlike]
  simp [run, Except.map, Except.mapError, hf', ho]

/-- **C60.** A directory has been transformed and the output directory then untransformed, both with any number of threads
under any schedule, perhaps by another machine of the same byte order; in between the transformed files are left alone.
Then for every file that was transformed with success, and found, readable and writable the second time, the second
command reports success and has written the original contents. -/
theorem C60_batch_roundtrip {os os' : Os} (hwf : os.Wf) (hwf' : os'.Wf) (p p' : Platform) (hm : p.m.endian = p'.m.endian)
    (hc : p'.overflowChecks = true → p.overflowChecks = true) (hu : 2 ^ 32 - 1 ≤ p.env.usizeMax) (dbg : E → String)
    (bundle : Bundle Unit E) (ls ls' : Listing) (w0 w1 : World Unit) (inputDir midDir outputDir : Path)
    (entries entries' : List Path)
    -- the first command
    (hb : Batch ls w0 inputDir midDir entries) (c : Config (Fin entries.length) Unit (Except FileError Nat))
    (hs : Steps os ⟨w0, transformJobs os (allHandlers p dbg) bundle inputDir midDir entries⟩ c)
    (he : ∀ i, (ended (c.progs i)).isSome)
    -- the second command
    (hb' : Batch ls' w1 midDir outputDir entries') (c' : Config (Fin entries'.length) Unit (Except FileError Nat))
    (hs' : Steps os' ⟨w1, untransformJobs os' (allHandlers (E := E) p' dbg) midDir outputDir entries'⟩ c')
    (he' : ∀ i, (ended (c'.progs i)).isSome)
    -- a file
    (rel : Path) (data : Buf) (hd : w0.files (inputDir ++ rel) = some data) (hfit : data.length ≤ os.usizeMax)
    (hin : data.length ≤ p'.env.usizeMax)
    (i : Fin entries.length) (hi : entries[i] = inputDir ++ rel) (n : Nat)
    (hok : ended (c.progs i) = some (some (.ok n)))
    (hkept : w1.files (midDir ++ rel) = c.world.files (midDir ++ rel))
    (j : Fin entries'.length) (hj : entries'[j] = midDir ++ rel)
    (hread : MayRead os' (midDir ++ rel) data.length) (hwrite : MayWrite os' w1 (outputDir ++ rel) data.length)
    (ext : Option String) (hx : ext = none ∨ ext = some "dds") (hext : IsExtension os' (midDir ++ rel) ext) :
    n = data.length ∧ ended (c'.progs j) = some (some (.ok data.length)) ∧
    c'.world.files (outputDir ++ rel) = some data := by
  obtain ⟨a1, a2, _⟩ := C39_schedule_independent_partial hb (.transform bundle) hs he
  obtain ⟨b1, b2, _⟩ := C39_schedule_independent_partial hb' .untransform hs' he'
  obtain ⟨rel1, hrel, hr1, ht1, _⟩ := hb.rel i
  obtain rfl : rel = rel1 := List.append_cancel_left (hi.symm.trans hr1)
  obtain ⟨rel2, _, hr2, ht2, _⟩ := hb'.rel j
  obtain rfl : rel = rel2 := List.append_cancel_left (hj.symm.trans hr2)
  have hmem : inputDir ++ rel ∈ entries := hi ▸ List.getElem_mem _
  have hmem' : midDir ++ rel ∈ entries' := hj ▸ List.getElem_mem _
  have hres := a1 i
  rw [hok] at hres
  have hfile := a2 i
  rw [ht1] at hfile
  unfold transformJobs at hres hfile
  rw [hi] at hres hfile
  obtain ⟨hn, fresh, o, h1, h2, h3, h4⟩ := job_transform_ok hwf hu hrel (hb.separate rel rel hmem hmem).symm hd hfit
    (Option.some.inj hres).symm
  rw [h4] at hfile
  have key := job_untransform_ok hwf' hm hc hu hin h1 h2 h3 (inputDir := midDir) (outputDir := outputDir) hrel
    (hb'.separate rel rel hmem' hmem').symm (hkept.trans hfile) hread hwrite hx hext
  have r1 := b1 j
  have r2 := b2 j
  rw [ht2] at r2
  unfold untransformJobs at r1 r2
  rw [hj] at r1 r2
  exact ⟨hn, r1.trans (by rw [key.1]), r2.trans key.2⟩

/-- Non-vacuity: the two files of `twoFiles` go from `/a` to `/c` and on to `/d`; the hypotheses on the second command
hold in the world after the first. -/
example :
    let r := runSeq kindOs (twoJobs ["c"]) [1, 0] twoFiles
    let ls : Listing := fun q => if q = ["c"] then ["b", "x"] else if q = ["c", "b"] then ["x"] else []
    let s := runSeq kindOs (untransformJobs kindOs (allHandlers somePlatform fun _ : Unit => "") ["c"] ["d"]
      [["c", "b", "x"], ["c", "x"]]) [0, 1] r.1
    findAllFiles ls r.1.dirs 3 ["c"] = some [["c", "b", "x"], ["c", "x"]] ∧ r.2.map (fun l => l.all (·.toBool)) = some true ∧
    s.2.map (fun l => l.all (·.toBool)) = some true ∧
    s.1.files ["d", "b", "x"] = some smallFile ∧ s.1.files ["d", "x"] = some smallFile := by
  decide +kernel

end Dlt.Props
