import Verif.Props.CliRoundtrip
import Verif.Props.CliNested
import Verif.Props.Reproducible
/-!
# C99: what becomes of a file depends on its bytes alone
-/

namespace Dlt.Props

open Dlt.FileFormats Dlt.FileIo Dlt.FileIo.Prog Dlt.Cli Dlt.Dds

variable {α E : Type}

/-- The part of the output directories: an error of the operating system or the work. -/
theorem createDirAll_io (os : Os) (k : Prog Unit (Except FileError α)) :
    ∀ (rest : List String) (base : Path) (w : World Unit),
      (∃ w' e, run os (createDirAll base rest k) w = (w', some (.error (.io e)))) ∨
        ∃ w', run os (createDirAll base rest k) w = run os k w' ∧ w'.files = w.files
  | [], base, w => by
    unfold createDirAll try'
    rw [run_op, exec_mkdir]
    by_cases hd : dirOk os w base = true
    · rw [if_pos hd]; exact .inr ⟨_, rfl, rfl⟩
    · rw [if_neg hd]; exact .inl ⟨_, _, rfl⟩
  | name :: rest, base, w => by
    unfold createDirAll try'
    rw [run_op, exec_mkdir]
    by_cases hd : dirOk os w base = true
    · rw [if_pos hd]; exact createDirAll_io os k rest (base ++ [name]) _
    · rw [if_neg hd]; exact .inl ⟨_, _, rfl⟩

/-- Creating the output file and converting into it. -/
theorem intoFile_io {os : Os} (hw : os.Wf) (p : Path) (n : Nat) (f : Buf → Unit → Option (Res Unit α)) (w : World Unit)
    (hf : ∀ fresh o st r, fresh.length = n → f fresh () = some (o, st, r) → o.length = n) :
    (∃ w' e, run os (intoFile p n f) w = (w', some (.error (.io e)))) ∨
    (∃ fresh, fresh.length = n ∧ ((f fresh () = none ∧ (run os (intoFile p n f) w).2 = none) ∨
      ∃ o st r, f fresh () = some (o, st, r) ∧ o.length = n ∧
        run os (intoFile p n f) w = (w.after p o st, some (r.mapError .transform)))) := by
  by_cases hd : (w.dirs p.dropLast && !w.dirs p) = true
  · rcases hc : os.create p n (w.files p) with ⟨c, ok⟩
    cases ok with
    | false => exact .inl ⟨w.setFile p c, .fileHandle, by simp [intoFile, try', run, exec, hd, hc]⟩
    | true =>
      have := hw p n (w.files p) (by rw [hc])
      rw [hc] at this
      obtain ⟨fresh, rfl, hl⟩ := this
      by_cases hm : os.canMapWrite p n = true
      · rw [Bool.and_eq_true, Bool.not_eq_true'] at hd
        obtain ⟨h1, h2⟩ := run_intoFile (w := w) ⟨hd.1, hd.2, hc, hl, hm⟩ f
        refine .inr ⟨fresh, hl, ?_⟩
        rcases hx : f fresh () with _ | ⟨o, st, r⟩
        · exact .inl ⟨rfl, by rw [h1 hx]⟩
        · have ho := hf fresh o st r hl hx
          exact .inr ⟨o, st, r, rfl, ho, h2 o st r hx ho⟩
      · exact .inl ⟨w.setFile p (some fresh), .memoryMapping, by
          simp [intoFile, try', run, exec, hd, hc, hm, World.setFile]⟩
  · exact .inl ⟨w, .fileHandle, by simp [intoFile, try', run, exec, hd]⟩

/-- The common form of the two commands for a file: `detect` and `conv` are the calls of the handler. -/
def fileProgram (h : Handler Unit E) (detect : Buf → Option String → Unit → Option (Unit × Bool))
    (conv : Buf → Buf → Unit → Option (Res Unit Unit)) (os : Os) (inp out : Path) : Prog Unit (Except FileError (Handler Unit E)) :=
  withInput os inp fun input =>
  .op (.call (detect input (extractLowercaseExtension os inp))) fun yes =>
    if yes then intoFile out input.length fun output st =>
      if inp = out then none else (conv input output st).map fun (o, st, r) => (o, st, r.map fun _ => h)
    else .ret (.error (.transform .noSupportedHandler))

/-- What a file with the contents `data` and the extension `ext` can come to: an error of the operating system, or what the handler
makes of the contents. -/
inductive Fate (detect : Buf → Option String → Unit → Option (Unit × Bool)) (conv : Buf → Buf → Unit → Option (Res Unit Unit))
    (data : Buf) (ext : Option String) : Option (Except FileError Nat) → Option Buf → Prop where
  | system (e : IoError) (file : Option Buf) : Fate detect conv data ext (some (.error (.io e))) file
  | detectPanics (file : Option Buf) : detect data ext () = none → Fate detect conv data ext none file
  | refused (file : Option Buf) : detect data ext () = some ((), false) →
      Fate detect conv data ext (some (.error (.transform .noSupportedHandler))) file
  | panics (fresh : Buf) (file : Option Buf) : detect data ext () = some ((), true) → fresh.length = data.length →
      conv data fresh () = none → Fate detect conv data ext none file
  | done (fresh o : Buf) (r : Except TransformError Unit) : detect data ext () = some ((), true) → fresh.length = data.length →
      o.length = data.length → conv data fresh () = some (o, (), r) →
      Fate detect conv data ext (some ((r.mapError .transform).map fun _ => data.length)) (some o)

theorem job_fate {os : Os} (hwf : os.Wf) {h : Handler Unit E} {detect : Buf → Option String → Unit → Option (Unit × Bool)}
    {conv : Buf → Buf → Unit → Option (Res Unit Unit)}
    (hlen : ∀ input fresh o st r, fresh.length = input.length → conv input fresh () = some (o, st, r) → o.length = input.length)
    {inputDir outputDir rel : Path} (hrel : rel ≠ []) (hne : inputDir ++ rel ≠ outputDir ++ rel)
    {w : World Unit} {data : Buf} (hd : w.files (inputDir ++ rel) = some data) (hfit : data.length ≤ os.usizeMax) :
    let x := run os (job (processFile (fileProgram h detect conv os) inputDir outputDir (inputDir ++ rel))) w
    Fate detect conv data (extractLowercaseExtension os (inputDir ++ rel)) x.2 (x.1.files (outputDir ++ rel)) := by
  dsimp only
  rw [run_job]
  dsimp only
  unfold processFile
  rw [stripPrefix_append]
  dsimp only
  rw [if_neg (by simp [hrel])]
  rcases createDirAll_io os (.op (.fileLen (inputDir ++ rel)) fun len =>
      (fileProgram h detect conv os (inputDir ++ rel) (outputDir ++ rel)).bind fun r =>
        .ret (r.map fun _ => len.getD 0)) (outputDir ++ rel).dropLast [] w with ⟨w', e, hx⟩ | ⟨w', hx, hfl⟩
  · rw [hx]; exact .system e _
  rw [hx, run_op]
  simp only [exec]
  rw [run_bind]
  have hd' : w'.files (inputDir ++ rel) = some data := by rw [hfl]; exact hd
  rw [hd', Option.map_some, Option.getD_some]
  unfold fileProgram
  rcases withInput_cases os (inputDir ++ rel) (fun input =>
      .op (.call (detect input (extractLowercaseExtension os (inputDir ++ rel)))) fun yes =>
        if yes then intoFile (outputDir ++ rel) input.length fun output st =>
          if inputDir ++ rel = outputDir ++ rel then none else (conv input output st).map fun (o, st, r) => (o, st, r.map fun _ => h)
        else .ret (.error (.transform .noSupportedHandler))) w' with ⟨e, hi⟩ | ⟨d, n, hdd, rfl, hi⟩
  · rw [hi]; exact .system e _
  obtain rfl : d = data := Option.some.inj (hdd.symm.trans hd')
  rw [Nat.mod_eq_of_lt (by omega), List.take_length] at hi
  rw [hi, run_op]
  simp only [exec]
  rcases hc : detect d (extractLowercaseExtension os (inputDir ++ rel)) () with _ | ⟨⟨⟩, yes⟩
  · exact .detectPanics _ hc
  dsimp only
  cases yes with
  | false => exact .refused _ hc
  | true =>
    rw [if_pos rfl]
    rcases intoFile_io hwf (outputDir ++ rel) d.length (fun output st =>
        if inputDir ++ rel = outputDir ++ rel then none else (conv d output st).map fun (o, st, r) => (o, st, r.map fun _ => h))
        { w' with st := () } (fun fresh o st r hl hf => by
          rw [if_neg hne] at hf
          obtain ⟨⟨o', st', r'⟩, ht, hy⟩ := Option.map_eq_some_iff.1 hf
          simp only [Prod.mk.injEq] at hy
          obtain ⟨rfl, _, _⟩ := hy
          exact hlen _ _ _ _ _ hl ht) with ⟨w1, e, hy⟩ | ⟨fresh, hl, ⟨hn, hy⟩ | ⟨o, st, r, hn, ho, hy⟩⟩
    · rw [hy]; exact .system e _
    · rcases hz : run os (intoFile (outputDir ++ rel) d.length fun output st =>
        if inputDir ++ rel = outputDir ++ rel then none else (conv d output st).map fun (o, st, r) => (o, st, r.map fun _ => h))
        { w' with st := () } with ⟨w1, x⟩
      rw [hz]
      rw [hz] at hy
      dsimp only at hy
      subst hy
      rw [if_neg hne, Option.map_eq_none_iff] at hn
      exact .panics fresh _ hc hl hn
    · rw [hy]
      rw [if_neg hne] at hn
      obtain ⟨⟨o', ⟨⟩, r'⟩, ht, hz⟩ := Option.map_eq_some_iff.1 hn
      simp only [Prod.mk.injEq] at hz
      obtain ⟨rfl, _, rfl⟩ := hz
      have key := Fate.done (detect := detect) (conv := conv) fresh o' r' hc hl ho ht
      cases r' <;> simpa [run, Except.map, Except.mapError, World.after] using key

theorem job_missing {os : Os} {h : Handler Unit E} {detect : Buf → Option String → Unit → Option (Unit × Bool)}
    {conv : Buf → Buf → Unit → Option (Res Unit Unit)} {inputDir outputDir rel : Path} (hrel : rel ≠ []) {w : World Unit}
    (hd : w.files (inputDir ++ rel) = none) (n : Nat) :
    (run os (job (processFile (fileProgram h detect conv os) inputDir outputDir (inputDir ++ rel))) w).2 ≠ some (.ok n) := by
  rw [run_job]
  dsimp only
  unfold processFile
  rw [stripPrefix_append]
  dsimp only
  rw [if_neg (by simp [hrel])]
  rcases createDirAll_io os (.op (.fileLen (inputDir ++ rel)) fun len =>
      (fileProgram h detect conv os (inputDir ++ rel) (outputDir ++ rel)).bind fun r =>
        .ret (r.map fun _ => len.getD 0)) (outputDir ++ rel).dropLast [] w with ⟨w', e, hx⟩ | ⟨w', hx, hfl⟩
  · rw [hx]; simp
  rw [hx, run_op]
  simp only [exec]
  rw [run_bind]
  unfold fileProgram
  rcases withInput_cases os (inputDir ++ rel) (fun input =>
      .op (.call (detect input (extractLowercaseExtension os (inputDir ++ rel)))) fun yes =>
        if yes then intoFile (outputDir ++ rel) input.length fun output st =>
          if inputDir ++ rel = outputDir ++ rel then none else (conv input output st).map fun (o, st, r) => (o, st, r.map fun _ => h)
        else .ret (.error (.transform .noSupportedHandler))) w' with ⟨e, hi⟩ | ⟨d, k, hdd, rfl, hi⟩
  · rw [hi]; simp [run, Except.map]
  · rw [hfl, hd] at hdd; cases hdd

theorem Fate.converted {detect : Buf → Option String → Unit → Option (Unit × Bool)} {conv : Buf → Buf → Unit → Option (Res Unit Unit)}
    {data : Buf} {ext : Option String} {n : Nat} {file : Option Buf} (h : Fate detect conv data ext (some (.ok n)) file) :
    ∃ fresh o, fresh.length = data.length ∧ file = some o ∧ conv data fresh () = some (o, (), .ok ()) := by
  generalize hx : some (Except.ok n) = x at h
  rcases h with ⟨e, _⟩ | ⟨_, a⟩ | ⟨_, a⟩ | ⟨fresh, _, a, b, c⟩ | ⟨fresh, o, r, a, b, c, d⟩ <;> try (simp at hx; done)
  cases r with
  | error e => simp [Except.mapError, Except.map] at hx
  | ok u => exact ⟨fresh, o, b, rfl, d⟩

/-- Two jobs that read the same bytes. -/
theorem Fate.same {detect : Buf → Option String → Unit → Option (Unit × Bool)} {conv : Buf → Buf → Unit → Option (Res Unit Unit)}
    (hbuf : ∀ input fresh fresh' o r, fresh.length = input.length → fresh'.length = input.length →
      conv input fresh () = some (o, (), r) → ∃ o', conv input fresh' () = some (o', (), r) ∧ (r = .ok () → o'.length = input.length →
        o.length = input.length → o' = o))
    {data : Buf} {ext ext' : Option String} {x x' : Option (Except FileError Nat)} {file file' : Option Buf}
    (h : Fate detect conv data ext x file) (h' : Fate detect conv data ext' x' file') :
    ((∃ n, x = some (.ok n)) → (∃ n, x' = some (.ok n)) → x = x' ∧ ∃ o, o.length = data.length ∧ file = some o ∧ file' = some o) ∧
    (ext = ext' → x = x' ∨ (∃ e, x = some (.error (.io e))) ∨ ∃ e, x' = some (.error (.io e))) := by
  constructor
  · rintro ⟨n, rfl⟩ ⟨n', rfl⟩
    generalize hx : some (Except.ok n) = x at h
    generalize hx' : some (Except.ok n') = x' at h'
    rcases h with ⟨e, _⟩ | ⟨_, a⟩ | ⟨_, a⟩ | ⟨a, b, c⟩ | ⟨fresh, o, r, a, b, c, d⟩ <;> try (simp at hx; done)
    rcases h' with ⟨e, _⟩ | ⟨_, a'⟩ | ⟨_, a'⟩ | ⟨a', b', c'⟩ | ⟨fresh', o', r', a', b', c', d'⟩ <;> try (simp at hx'; done)
    obtain ⟨o2, k1, k2⟩ := hbuf data fresh fresh' o r b b' d
    rw [d'] at k1
    simp only [Option.some.injEq, Prod.mk.injEq, true_and] at k1
    obtain ⟨rfl, rfl⟩ := k1
    cases r' with
    | error e => simp [Except.mapError, Except.map] at hx
    | ok u => exact ⟨rfl, o, c, rfl, by rw [k2 rfl c' c]⟩
  · rintro rfl
    rcases h with ⟨e, _⟩ | ⟨_, a⟩ | ⟨_, a⟩ | ⟨fresh, _, a, b, c⟩ | ⟨fresh, o, r, a, b, c, d⟩
    · exact .inr (.inl ⟨e, rfl⟩)
    · rcases h' with ⟨e, _⟩ | ⟨_, a'⟩ | ⟨_, a'⟩ | ⟨fresh', _, a', b', c'⟩ | ⟨fresh', o', r', a', b', c', d'⟩
      · exact .inr (.inr ⟨e, rfl⟩)
      all_goals first | exact .inl rfl | (rw [a] at a'; cases a')
    · rcases h' with ⟨e, _⟩ | ⟨_, a'⟩ | ⟨_, a'⟩ | ⟨fresh', _, a', b', c'⟩ | ⟨fresh', o', r', a', b', c', d'⟩
      · exact .inr (.inr ⟨e, rfl⟩)
      all_goals first | exact .inl rfl | (rw [a] at a'; cases a')
    · rcases h' with ⟨e, _⟩ | ⟨_, a'⟩ | ⟨_, a'⟩ | ⟨fresh', _, a', b', c'⟩ | ⟨fresh', o', r', a', b', c', d'⟩
      · exact .inr (.inr ⟨e, rfl⟩)
      · rw [a] at a'; cases a'
      · rw [a] at a'; cases a'
      · exact .inl rfl
      · obtain ⟨o2, k, _⟩ := hbuf data fresh' fresh o' r' b' b d'
        rw [c] at k; cases k
    · rcases h' with ⟨e, _⟩ | ⟨_, a'⟩ | ⟨_, a'⟩ | ⟨fresh', _, a', b', c'⟩ | ⟨fresh', o', r', a', b', c', d'⟩
      · exact .inr (.inr ⟨e, rfl⟩)
      · rw [a] at a'; cases a'
      · rw [a] at a'; cases a'
      · obtain ⟨o2, k, _⟩ := hbuf data fresh fresh' o r b b' d
        rw [c'] at k; cases k
      · obtain ⟨o2, k, _⟩ := hbuf data fresh fresh' o r b b' d
        rw [d'] at k
        simp only [Option.some.injEq, Prod.mk.injEq, true_and] at k
        obtain ⟨rfl, rfl⟩ := k
        exact .inl rfl

/-- The command that turns into `transform` with a bundle, or into `untransform`. -/
inductive Direction (E : Type) where
  | transform (bundle : Bundle Unit E)
  | untransform

/-- The programs of the command. -/
def commandJobs (dir : Direction E) (os : Os) (p : Platform) (dbg : E → String) (inputDir outputDir : Path) (entries : List Path) :
    Fin entries.length → Prog Unit (Except FileError Nat) :=
  match dir with
  | .transform bundle => transformJobs os (allHandlers p dbg) bundle inputDir outputDir entries
  | .untransform => untransformJobs os (allHandlers (E := E) p dbg) inputDir outputDir entries

theorem commandJobs_batch (dir : Direction E) (os : Os) (p : Platform) (dbg : E → String) (inputDir outputDir : Path) (entries : List Path) :
    IsBatch os (allHandlers p dbg) inputDir outputDir entries (commandJobs dir os p dbg inputDir outputDir entries) := by
  cases dir with
  | transform bundle => exact .transform bundle
  | untransform => exact .untransform

/-- What the handler is asked first. -/
def asked (dir : Direction E) (p : Platform) (dbg : E → String) : Buf → Option String → Unit → Option (Unit × Bool) :=
  match dir with
  | .transform _ => (handler (E := E) p dbg).canHandle
  | .untransform => (handler (E := E) p dbg).canHandleUntransform

/-- What the handler does then. -/
def worked (dir : Direction E) (p : Platform) (dbg : E → String) (input output : Buf) (st : Unit) : Option (Res Unit Unit) :=
  match dir with
  | .transform bundle => transformSliceWithBundle (handler p dbg) input output bundle st
  | .untransform => untransformSlice (handler (E := E) p dbg) input output st

theorem commandJobs_eq (dir : Direction E) (os : Os) (p : Platform) (dbg : E → String) (inputDir outputDir : Path) (entries : List Path)
    (i : Fin entries.length) : commandJobs dir os p dbg inputDir outputDir entries i =
      job (processFile (fileProgram (handler p dbg) (asked dir p dbg) (worked dir p dbg) os) inputDir outputDir entries[i]) := by
  cases dir <;> rfl

theorem worked_length (dir : Direction E) {p : Platform} (hw : Wide p) (dbg : E → String) (input fresh o : Buf) (st : Unit)
    (r : Except TransformError Unit) (hl : fresh.length = input.length) (h : worked dir p dbg input fresh () = some (o, st, r)) :
    o.length = input.length := by
  have hu : 2 ^ 32 - 1 ≤ p.env.usizeMax := by unfold Wide at hw; omega
  cases dir with
  | transform bundle =>
    simp only [worked, transformSliceWithBundle] at h
    rw [if_neg (by omega)] at h
    have := dds_keeps_length (dbg := dbg) hu h
    omega
  | untransform =>
    simp only [worked, untransformSlice] at h
    rw [if_neg (by omega)] at h
    obtain ⟨⟨o', r'⟩, ht, hx⟩ := Option.map_eq_some_iff.1 h
    simp only [Prod.mk.injEq] at hx
    obtain ⟨rfl, _, _⟩ := hx
    have := dds_keeps_length_untransform hw ht
    omega

theorem worked_buffer (dir : Direction E) {p : Platform} (hw : Wide p) (dbg : E → String) (input fresh fresh' o : Buf)
    (r : Except TransformError Unit) (hl : fresh.length = input.length) (hl' : fresh'.length = input.length)
    (h : worked dir p dbg input fresh () = some (o, (), r)) : ∃ o', worked dir p dbg input fresh' () = some (o', (), r) ∧
      (r = .ok () → o'.length = input.length → o.length = input.length → o' = o) := by
  have hu : 2 ^ 32 - 1 ≤ p.env.usizeMax := by unfold Wide at hw; omega
  cases dir with
  | transform bundle =>
    simp only [worked, transformSliceWithBundle] at h ⊢
    rw [if_neg (by omega)] at h ⊢
    obtain ⟨o', h1, h2⟩ := C97_transform_buffer p hu dbg bundle input fresh fresh' o () () r (by omega) h
    exact ⟨o', h1, fun hr a b => by have := h2 hr; rwa [← a, List.take_length, a, ← b, List.take_length] at this⟩
  | untransform =>
    simp only [worked, untransformSlice] at h ⊢
    rw [if_neg (by omega)] at h ⊢
    obtain ⟨⟨o1, r1⟩, ht, hx⟩ := Option.map_eq_some_iff.1 h
    simp only [Prod.mk.injEq] at hx
    obtain ⟨rfl, _, rfl⟩ := hx
    obtain ⟨o', h1, h2⟩ := C97_untransform_buffer p hu input fresh fresh' o1 r1 (by omega) ht
    refine ⟨o', ?_, fun hr a b => by have := h2 hr; rwa [← a, List.take_length, a, ← b, List.take_length] at this⟩
    change (untransform p input fresh').map _ = _
    rw [h1]; rfl

section
variable {os os' : Os} (p : Platform) (m : Machine) (dbg : E → String) (dir : Direction E) {ls ls' : Listing} {w0 w0' : World Unit}
  {inputDir outputDir inputDir' outputDir' : Path} {entries entries' : List Path}

theorem command_fate (hwf : os.Wf) (hw : Wide p) (hl : Listed ls w0 inputDir entries)
    {c : Config (Fin entries.length) Unit (Except FileError Nat)}
    (hs : Steps os ⟨w0, commandJobs dir os p dbg inputDir outputDir entries⟩ c) (i : Fin entries.length)
    (hfree : ∀ j : Fin entries.length, targetOf inputDir outputDir entries[j] ≠ entries[i]) {data : Buf}
    (hd : w0.files entries[i] = some data) (hfit : data.length ≤ os.usizeMax) {x : Option (Except FileError Nat)}
    (he : ended (c.progs i) = some x) :
    Fate (asked dir p dbg) (worked dir p dbg) data (extractLowercaseExtension os entries[i]) x
      (c.world.files (targetOf inputDir outputDir entries[i])) := by
  obtain ⟨h1, h2⟩ := C39_one_file_partial hl (commandJobs_batch dir os p dbg inputDir outputDir entries) hs i
    (fun j _ => hfree j) (by rw [he]; rfl)
  rw [he, Option.some.injEq] at h1
  rw [h1, h2]
  obtain ⟨rel, hrel, hr, ht, _⟩ := hl.rel outputDir i
  rw [commandJobs_eq, ht]
  have hne := hfree i
  rw [ht, hr] at hne
  rw [hr] at hd ⊢
  exact job_fate hwf (fun input fresh o st r => worked_length dir hw dbg input fresh o st r) hrel (Ne.symm hne) hd hfit

theorem cpu_jobs (hm : m.endian = p.m.endian) (os : Os) (inputDir outputDir : Path) (entries : List Path) :
    commandJobs dir os (withCpu p m) dbg inputDir outputDir entries = commandJobs dir os p dbg inputDir outputDir entries := by
  cases dir <;> simp only [commandJobs, allHandlers, C97_handler p m hm]

/-- **C99.** Two executions of the same command (`transform` with the same settings, or `untransform`), at any times, on any two
operating systems, in any two directories, with any CPUs of the same byte order, any numbers of threads, any schedules and whatever lay in
the output directories before.  A file of the first and a file of the second execution held the same bytes, and no output of either execution
replaces that file itself.

If both were converted with success the two output files are the same, byte for byte, and the same number of bytes was counted. -/
theorem C99_same_bytes_same_file (hwf : os.Wf) (hwf' : os'.Wf) (hw : Wide p) (hm : m.endian = p.m.endian)
    (hl : Listed ls w0 inputDir entries) (hl' : Listed ls' w0' inputDir' entries')
    (c : Config (Fin entries.length) Unit (Except FileError Nat))
    (hs : Steps os ⟨w0, commandJobs dir os p dbg inputDir outputDir entries⟩ c)
    (c' : Config (Fin entries'.length) Unit (Except FileError Nat))
    (hs' : Steps os' ⟨w0', commandJobs dir os' (withCpu p m) dbg inputDir' outputDir' entries'⟩ c')
    (i : Fin entries.length) (i' : Fin entries'.length)
    (hfree : ∀ j : Fin entries.length, targetOf inputDir outputDir entries[j] ≠ entries[i])
    (hfree' : ∀ j : Fin entries'.length, targetOf inputDir' outputDir' entries'[j] ≠ entries'[i'])
    (data : Buf) (hd : w0.files entries[i] = some data) (hd' : w0'.files entries'[i'] = some data)
    (hfit : data.length ≤ os.usizeMax) (hfit' : data.length ≤ os'.usizeMax)
    (n n' : Nat) (he : ended (c.progs i) = some (some (.ok n))) (he' : ended (c'.progs i') = some (some (.ok n'))) :
    n = n' ∧ ∃ o, o.length = data.length ∧ c.world.files (targetOf inputDir outputDir entries[i]) = some o ∧
      c'.world.files (targetOf inputDir' outputDir' entries'[i']) = some o := by
  rw [cpu_jobs p m dbg dir hm] at hs'
  have f := command_fate p dbg dir hwf hw hl hs i hfree hd hfit he
  have f' := command_fate p dbg dir hwf' hw hl' hs' i' hfree' hd' hfit' he'
  obtain ⟨h1, h2⟩ := (Fate.same (fun input fresh fresh' o r => worked_buffer dir hw dbg input fresh fresh' o r) f f').1 ⟨n, rfl⟩ ⟨n', rfl⟩
  simp only [Option.some.injEq, Except.ok.injEq] at h1
  exact ⟨h1, h2⟩

/-- **C99** (reports).  In the same situation, if the names have the same extension, the two files have the same result: both are converted, or both
are refused with the same error, or both panic.  The only exceptions are errors of the operating system in one of the executions. -/
theorem C99_same_bytes_same_result (hwf : os.Wf) (hwf' : os'.Wf) (hw : Wide p) (hm : m.endian = p.m.endian)
    (hl : Listed ls w0 inputDir entries) (hl' : Listed ls' w0' inputDir' entries')
    (c : Config (Fin entries.length) Unit (Except FileError Nat))
    (hs : Steps os ⟨w0, commandJobs dir os p dbg inputDir outputDir entries⟩ c)
    (c' : Config (Fin entries'.length) Unit (Except FileError Nat))
    (hs' : Steps os' ⟨w0', commandJobs dir os' (withCpu p m) dbg inputDir' outputDir' entries'⟩ c')
    (i : Fin entries.length) (i' : Fin entries'.length)
    (hfree : ∀ j : Fin entries.length, targetOf inputDir outputDir entries[j] ≠ entries[i])
    (hfree' : ∀ j : Fin entries'.length, targetOf inputDir' outputDir' entries'[j] ≠ entries'[i'])
    (data : Buf) (hd : w0.files entries[i] = some data) (hd' : w0'.files entries'[i'] = some data)
    (hfit : data.length ≤ os.usizeMax) (hfit' : data.length ≤ os'.usizeMax)
    (ext : Option String) (hx : IsExtension os entries[i] ext) (hx' : IsExtension os' entries'[i'] ext)
    (x x' : Option (Except FileError Nat)) (he : ended (c.progs i) = some x) (he' : ended (c'.progs i') = some x') :
    x = x' ∨ (∃ e, x = some (.error (.io e))) ∨ ∃ e, x' = some (.error (.io e)) := by
  rw [cpu_jobs p m dbg dir hm] at hs'
  have f := command_fate p dbg dir hwf hw hl hs i hfree hd hfit he
  have f' := command_fate p dbg dir hwf' hw hl' hs' i' hfree' hd' hfit' he'
  exact (Fate.same (fun input fresh fresh' o r => worked_buffer dir hw dbg input fresh fresh' o r) f f').2
    (by rw [extension_spec hx, extension_spec hx'])

/-- **C99** (once more).  The command is repeated: same input and output directories, in the world that the first execution has left (the
counter of the process aside), perhaps on another CPU of the same byte order, with other threads and under another schedule, for some or all of the files.  All
files that it works on were converted with success the first time, and again.  Then nothing has changed: every file, in the output directory and
elsewhere, is what it was after the first execution. -/
theorem C99_once_more (hwf : os.Wf) (hwf' : os'.Wf) (hw : Wide p) (hm : m.endian = p.m.endian)
    (hb : Batch ls w0 inputDir outputDir entries) (c : Config (Fin entries.length) Unit (Except FileError Nat))
    (hs : Steps os ⟨w0, commandJobs dir os p dbg inputDir outputDir entries⟩ c) (he : ∀ i, (ended (c.progs i)).isSome)
    (w1 : World Unit) (hw1 : w1.files = c.world.files)
    (hb' : Batch ls' w1 inputDir outputDir entries') (hsub : ∀ e ∈ entries', e ∈ entries)
    (hfit : ∀ q ∈ entries', ∀ data, w0.files q = some data → data.length ≤ os.usizeMax ∧ data.length ≤ os'.usizeMax)
    (c' : Config (Fin entries'.length) Unit (Except FileError Nat))
    (hs' : Steps os' ⟨w1, commandJobs dir os' (withCpu p m) dbg inputDir outputDir entries'⟩ c')
    (hok : ∀ i : Fin entries.length, entries[i] ∈ entries' → ∃ n, ended (c.progs i) = some (some (.ok n)))
    (hok' : ∀ i, ∃ n, ended (c'.progs i) = some (some (.ok n))) : c'.world.files = c.world.files := by
  have free : ∀ {ls : Listing} {w : World Unit} {entries : List Path} (hb : Batch ls w inputDir outputDir entries) (i j : Fin entries.length),
      targetOf inputDir outputDir entries[j] ≠ entries[i] := by
    intro ls w entries hb i j
    obtain ⟨rel, _, h1, _⟩ := hb.rel i
    obtain ⟨rel', _, h2, h3, _⟩ := hb.rel j
    rw [h3, h1]
    exact hb.separate rel' rel (h2 ▸ List.getElem_mem _) (h1 ▸ List.getElem_mem _)
  have hs2 := hs'
  rw [cpu_jobs p m dbg dir hm] at hs2
  obtain ⟨_, _, a3, _⟩ := C39_schedule_independent_partial hb (commandJobs_batch dir os p dbg inputDir outputDir entries) hs he
  obtain ⟨_, _, b3, _⟩ := C39_schedule_independent_partial hb' (commandJobs_batch dir os' p dbg inputDir outputDir entries') hs2
    (fun i => by obtain ⟨n, h⟩ := hok' i; rw [h]; rfl)
  funext q
  by_cases hq : ∃ i : Fin entries'.length, q = targetOf inputDir outputDir entries'[i]
  · obtain ⟨i', rfl⟩ := hq
    obtain ⟨k, hk, hki⟩ := List.getElem_of_mem (hsub entries'[i'] (List.getElem_mem _))
    let i : Fin entries.length := ⟨k, hk⟩
    have hi : entries[i] = entries'[i'] := hki
    obtain ⟨n', h2⟩ := hok' i'
    obtain ⟨n, h1⟩ := hok i (hi ▸ List.getElem_mem _)
    have hin : w1.files entries'[i'] = w0.files entries[i] := by
      rw [hw1, ← hi]
      exact a3 _ fun j => Ne.symm (free hb i j)
    cases hd : w0.files entries[i] with
    | none =>
      obtain ⟨g, _⟩ := C39_one_file_partial hb.listed (commandJobs_batch dir os p dbg inputDir outputDir entries) hs i
        (fun j _ => free hb i j) (he i)
      rw [h1, Option.some.injEq] at g
      obtain ⟨rel, hrel, hr, _⟩ := hb.rel i
      rw [commandJobs_eq, hr] at g
      rw [hr] at hd
      exact absurd g.symm (job_missing hrel hd n)
    | some data =>
      obtain ⟨hf, hf'⟩ := hfit entries'[i'] (List.getElem_mem _) data (hi ▸ hd)
      obtain ⟨_, o, _, h3, h4⟩ := C99_same_bytes_same_file p m dbg dir hwf hwf' hw hm hb.listed hb'.listed c hs c' hs' i i' (free hb i) (free hb' i')
        data hd (hin.trans hd) hf hf' n n' h1 h2
      rw [h4, ← h3, hi]
  · rw [b3 q fun i e => hq ⟨i, e⟩, hw1]

end

/-- Non-vacuity: the two files of `twoFiles` are transformed to `/c`, and again in the world that this has left, in the other order.  The hypotheses hold, both
files are converted both times, and the outputs (which are not the inputs) are the same. -/
example :
    let r := runSeq kindOs (twoJobs ["c"]) [1, 0] twoFiles
    let s := runSeq kindOs (twoJobs ["c"]) [0, 1] r.1
    twoJobs ["c"] = commandJobs (.transform (Bundle.new.withBc1Manual .new)) kindOs somePlatform (fun _ : Unit => "") ["a"] ["c"]
      [["a", "x"], ["a", "b", "x"]] ∧ Wide somePlatform ∧
    Batch twoListing r.1 ["a"] ["c"] [["a", "x"], ["a", "b", "x"]] ∧
    r.2.map (fun l => l.all (·.toBool)) = some true ∧ s.2.map (fun l => l.all (·.toBool)) = some true ∧
    s.1.files ["c", "x"] = r.1.files ["c", "x"] ∧ (r.1.files ["c", "x"]).isSome ∧ r.1.files ["c", "x"] ≠ some smallFile := by
  refine ⟨rfl, by unfold Wide; decide, ⟨⟨3, by decide +kernel⟩, ?_, fun rel rel' _ _ => separate_of_disjoint (by decide) (by decide) rel rel'⟩,
    by decide +kernel⟩
  intro d
  unfold twoListing
  split
  · decide
  · split <;> decide

end Dlt.Props
