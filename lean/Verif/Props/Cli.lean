import Verif.Lemmas.Cli
import Verif.Props.FileIo
import Mathlib.Data.Fintype.Fin
import Mathlib.Data.DFinsupp.WellFounded
/-!
# C39: batch processing
-/

namespace Dlt.Props

open Dlt.FileFormats Dlt.FileIo Dlt.FileIo.Prog Dlt.Cli Dlt.Dds

variable {α β E : Type}

/-! ## The files found -/

/-- `e` is a file below `dir`: on the way to it there are listed directories only. -/
def IsEntry (ls : Listing) (isDir : Path → Bool) (dir e : Path) : Prop :=
  ∃ rel, rel ≠ [] ∧ e = dir ++ rel ∧ isDir e = false ∧ (∀ r name, r ++ [name] <+: rel → name ∈ ls (dir ++ r)) ∧
    ∀ r, r ≠ [] → r <+: rel → r ≠ rel → isDir (dir ++ r) = true

theorem isEntry_iff (ls : Listing) (isDir : Path → Bool) (dir e : Path) :
    IsEntry ls isDir dir e ↔ ∃ name ∈ ls dir, (isDir (dir ++ [name]) = false ∧ e = dir ++ [name]) ∨
      (isDir (dir ++ [name]) = true ∧ IsEntry ls isDir (dir ++ [name]) e) := by
  constructor
  · rintro ⟨rel, hne, rfl, hd, hl, hp⟩
    match rel, hne with
    | name :: rel, _ =>
      refine ⟨name, ?_, ?_⟩
      · have := hl [] name (by simp)
        simpa using this
      · match rel with
        | [] => exact .inl ⟨hd, rfl⟩
        | b :: rel =>
          right
          refine ⟨hp [name] (by simp) (by simp) (by simp), b :: rel, by simp, by simp, by simpa using hd, ?_, ?_⟩
          · intro r nm h
            have := hl (name :: r) nm (by simpa using h)
            simpa using this
          · intro r h1 h2 h3
            have := hp (name :: r) (by simp) (by simpa using h2) (by simpa using h3)
            simpa using this
  · rintro ⟨name, hn, ⟨hd, rfl⟩ | ⟨hd, rel, hne, rfl, hd', hl, hp⟩⟩
    · refine ⟨[name], by simp, rfl, hd, ?_, ?_⟩
      · intro r nm h
        have h1 := h.length_le
        have : r = [] := by
          cases r with
          | nil => rfl
          | cons a r => simp at h1
        subst this
        simp at h
        simpa [h] using hn
      · intro r h1 h2 h3
        exfalso
        have h4 := h2.length_le
        match r, h1 with
        | [a], _ => simp at h2; simp [h2] at h3
        | a :: b :: r, _ => simp at h4
    · refine ⟨name :: rel, by simp, by simp, hd', ?_, ?_⟩
      · intro r nm h
        match r with
        | [] => simp at h; simpa [h] using hn
        | a :: r =>
          simp at h
          obtain ⟨rfl, h⟩ := h
          simpa using hl r nm h
      · intro r h1 h2 h3
        match r, h1 with
        | a :: r, _ =>
          simp at h2
          obtain ⟨rfl, h2⟩ := h2
          by_cases hr : r = []
          · subst hr; exact hd
          · simpa using hp r hr h2 (by simpa using h3)

/-- **C39** (the files): `find_all_files` finds every file below the directory once, and nothing else.  `ls` is what the
operating system lists; it lists no name twice. -/
theorem C39_find_all_files (ls : Listing) (hls : ∀ d, (ls d).Nodup) (isDir : Path → Bool) :
    ∀ (fuel : Nat) (dir : Path) (entries : List Path), findAllFiles ls isDir fuel dir = some entries →
      entries.Nodup ∧ ∀ e, e ∈ entries ↔ IsEntry ls isDir dir e
  | 0, _, _, h => by simp [findAllFiles] at h
  | fuel + 1, dir, entries, h => by
    rw [findAllFiles] at h
    have key : ∀ (names : List String) (entries : List Path), names.Nodup →
        collectEntries isDir (findAllFiles ls isDir fuel) dir names = some entries →
        entries.Nodup ∧ ∀ e, e ∈ entries ↔ ∃ name ∈ names, (isDir (dir ++ [name]) = false ∧ e = dir ++ [name]) ∨
          (isDir (dir ++ [name]) = true ∧ IsEntry ls isDir (dir ++ [name]) e) := by
      intro names
      induction names with
      | nil =>
        intro entries _ h
        rw [collectEntries] at h
        cases h
        simp
      | cons name names ih =>
        intro entries hn h
        rw [List.nodup_cons] at hn
        have hpre : ∀ e, (∃ nm ∈ names, (isDir (dir ++ [nm]) = false ∧ e = dir ++ [nm]) ∨
            (isDir (dir ++ [nm]) = true ∧ IsEntry ls isDir (dir ++ [nm]) e)) → ∃ nm ∈ names, ∃ rel, e = dir ++ nm :: rel := by
          rintro e ⟨nm, hnm, ⟨_, rfl⟩ | ⟨_, rel, _, rfl, _⟩⟩
          · exact ⟨nm, hnm, [], rfl⟩
          · exact ⟨nm, hnm, rel, by simp⟩
        rw [collectEntries] at h
        by_cases hd : isDir (dir ++ [name]) = true
        · rw [if_pos hd] at h
          obtain ⟨x, hx, h⟩ := Option.bind_eq_some_iff.1 h
          obtain ⟨y, hy, h⟩ := Option.bind_eq_some_iff.1 h
          cases h
          obtain ⟨h1, h2⟩ := C39_find_all_files ls hls isDir fuel _ x hx
          obtain ⟨h3, h4⟩ := ih y hn.2 hy
          refine ⟨List.nodup_append.2 ⟨h1, h3, ?_⟩, fun e => ?_⟩
          · rintro a ha b hb rfl
            obtain ⟨rel, _, rfl, _⟩ := (h2 a).1 ha
            obtain ⟨nm, hnm, rel', he⟩ := hpre _ ((h4 _).1 hb)
            simp at he
            exact hn.1 (he.1 ▸ hnm)
          · rw [List.mem_append, h2, h4]
            constructor
            · rintro (h | ⟨nm, hnm, h⟩)
              · exact ⟨name, by simp, .inr ⟨hd, h⟩⟩
              · exact ⟨nm, by simp [hnm], h⟩
            · rintro ⟨nm, hnm, h⟩
              rcases List.mem_cons.1 hnm with hnm | hnm
              · rw [hnm] at h
                rcases h with ⟨h, _⟩ | ⟨_, h⟩
                · rw [h] at hd; exact nomatch hd
                · exact .inl h
              · exact .inr ⟨nm, hnm, h⟩
        · rw [if_neg hd] at h
          obtain ⟨y, hy, h⟩ := Option.bind_eq_some_iff.1 h
          cases h
          obtain ⟨h3, h4⟩ := ih y hn.2 hy
          refine ⟨List.nodup_cons.2 ⟨fun hb => ?_, h3⟩, fun e => ?_⟩
          · obtain ⟨nm, hnm, rel', he⟩ := hpre _ ((h4 _).1 hb)
            simp at he
            exact hn.1 (he.1 ▸ hnm)
          · rw [List.mem_cons, h4]
            constructor
            · rintro (rfl | ⟨nm, hnm, h⟩)
              · exact ⟨name, by simp, .inl ⟨by simpa using hd, rfl⟩⟩
              · exact ⟨nm, by simp [hnm], h⟩
            · rintro ⟨nm, hnm, h⟩
              rcases List.mem_cons.1 hnm with hnm | hnm
              · rw [hnm] at h
                rcases h with ⟨_, h⟩ | ⟨h, _⟩
                · exact .inl h
                · exact absurd h hd
              · exact .inr ⟨nm, hnm, h⟩
    obtain ⟨h1, h2⟩ := key (ls dir) entries (hls dir) h
    exact ⟨h1, fun e => (h2 e).trans (isEntry_iff ls isDir dir e).symm⟩

/-! ## The work on one file stays in its area -/

theorem foot_true_next {a : Area} {β : Type} (s : Sys Unit β) (b : β) : nextReady a true s b = true := by
  cases s with
  | mkdir p => cases b <;> rfl
  | _ => rfl

theorem foot_bind {a : Area} {f : α → Prog Unit β} (hf : ∀ r v, Foot a r (f v)) :
    ∀ (x : Prog Unit α) (r : Bool), Foot a r x → Foot a r (x.bind f)
  | .ret v, r, _ => hf r v
  | .panic, _, _ => trivial
  | .op _ k, _, h => ⟨h.1, fun b => foot_bind hf (k b) _ (h.2 b)⟩

theorem foot_try {a : Area} {r : Bool} {s : Sys Unit (Except IoError β)} {k : β → Prog Unit (Except FileError α)}
    (hs : Within a r s) (hk : ∀ b, Foot a (nextReady a r s (.ok b)) (k b)) : Foot a r (try' s k) := by
  refine ⟨hs, fun b => ?_⟩
  cases b with
  | error e => trivial
  | ok b => exact hk b

theorem foot_withInput {os : Os} {a : Area} {r : Bool} {k : Buf → Prog Unit (Except FileError α)}
    (hk : ∀ b, Foot a r (k b)) : Foot a r (withInput os a.inp k) :=
  foot_try rfl fun _ => foot_try rfl fun _ => foot_try rfl fun b => hk b

theorem foot_intoFile {a : Area} {n : Nat} {f : Buf → Unit → Option (Res Unit α)} : Foot a true (intoFile a.out n f) :=
  foot_try ⟨rfl, rfl⟩ fun _ => foot_try rfl fun _ => ⟨trivial, fun _ => ⟨rfl, fun _ => trivial⟩⟩

theorem foot_tryHandlers {a : Area} {r : Bool} {detect : Handler Unit E → Unit → Option (Unit × Bool)}
    {go : Handler Unit E → Prog Unit α} {rejected : α} (hg : ∀ h, Foot a r (go h)) :
    ∀ hs, Foot a r (tryHandlers detect go rejected hs)
  | [] => trivial
  | h :: hs => ⟨trivial, fun b => by
    cases b
    · exact foot_tryHandlers hg hs
    · exact hg h⟩

theorem foot_createDirAll {a : Area} {k : Prog Unit (Except FileError α)} (hk : Foot a true k) :
    ∀ (rest : List String) (base : Path) (r : Bool), base ++ rest = a.out.dropLast →
      (∀ q, q <+: a.out.dropLast → q ∈ a.ds) → Foot a r (createDirAll base rest k)
  | [], base, r, hb, hd => by
    refine foot_try (hd base (by rw [← hb]; simp)) fun _ => ?_
    have : nextReady a r (.mkdir base) (.ok ()) = true := by
      rw [List.append_nil] at hb
      simp [nextReady, hb]
    rw [this]
    exact hk
  | name :: rest, base, r, hb, hd =>
    foot_try (hd base (by rw [← hb]; simp)) fun _ =>
      foot_createDirAll hk rest (base ++ [name]) _ (by simpa using hb) hd

theorem stripPrefix_append (dir rel : Path) : stripPrefix (dir ++ rel) dir = some rel := by
  induction dir with
  | nil => cases rel <;> rfl
  | cons a dir ih =>
    rw [List.cons_append, stripPrefix, if_pos rfl, ih]

/-- The area of the work on the file `inputDir ++ rel`. -/
def areaOf (inputDir outputDir rel : Path) : Area :=
  ⟨inputDir ++ rel, outputDir ++ rel, (outputDir ++ rel).dropLast.inits⟩

theorem foot_job {convert : Path → Path → Prog Unit (Except FileError (Handler Unit E))} {inputDir outputDir rel : Path}
    (hne : rel ≠ []) (hc : Foot (areaOf inputDir outputDir rel) true (convert (inputDir ++ rel) (outputDir ++ rel))) :
    Foot (areaOf inputDir outputDir rel) false (job (processFile convert inputDir outputDir (inputDir ++ rel))) := by
  unfold job
  refine foot_bind (fun r v => ?_) _ _ ?_
  · cases v with
    | error e => trivial
    | ok n => exact ⟨trivial, fun _ => trivial⟩
  · unfold processFile
    rw [stripPrefix_append]
    dsimp only
    rw [if_neg (by simp [hne])]
    refine foot_createDirAll ?_ _ _ _ rfl fun q hq => List.mem_inits _ _ |>.2 hq
    refine ⟨rfl, fun b => foot_bind (fun _ _ => ?_) _ _ hc⟩
    trivial

theorem foot_convert {os : Os} {a : Area} (hs : List (Handler Unit E)) (bundle : Bundle Unit E) :
    Foot a true (transformFileWithMultipleHandlers os hs a.inp a.out bundle) ∧
    Foot a true (untransformFileWithMultipleHandlers os hs a.inp a.out) :=
  ⟨foot_withInput fun _ => foot_tryHandlers (fun _ => foot_intoFile) hs,
    foot_withInput fun _ => foot_tryHandlers (fun _ => foot_intoFile) hs⟩

/-! ## The counter -/

theorem run_bind (os : Os) (f : α → Prog Unit β) : ∀ (x : Prog Unit α) (w : World Unit),
    run os (x.bind f) w =
      match run os x w with
      | (w, none) => (w, none)
      | (w, some a) => run os (f a) w
  | .ret a, w => rfl
  | .panic, w => rfl
  | .op s k, w => by
    rw [Prog.bind, run_op, run_op]
    rcases exec os s w with ⟨w1, _ | b⟩
    · rfl
    · exact run_bind os f (k b) w1

/-- The number of bytes that a result counts. -/
def bytes : Option (Except FileError Nat) → BitVec 64
  | some (.ok n) => BitVec.ofNat 64 n
  | _ => 0

theorem run_job (os : Os) (x : Prog Unit (Except FileError Nat)) (w : World Unit) :
    run os (job x) w = ({ (run os x w).1 with counter := (run os x w).1.counter + bytes (run os x w).2 }, (run os x w).2) := by
  unfold job
  rw [run_bind]
  rcases run os x w with ⟨w1, _ | _ | n⟩
  · simp [bytes]
  · simp [bytes, run]
  · simp [bytes, run, exec]

theorem run_createDirAll_counter (os : Os) (k : Prog Unit (Except FileError α))
    (hk : ∀ w, (run os k w).1.counter = w.counter) : ∀ (rest : List String) (base : Path) (w : World Unit),
      (run os (createDirAll base rest k) w).1.counter = w.counter
  | [], base, w => by
    unfold createDirAll try'
    rw [run_op, exec_mkdir]
    by_cases hd : dirOk os w base = true
    · rw [if_pos hd]; exact hk _
    · rw [if_neg hd]; rfl
  | name :: rest, base, w => by
    unfold createDirAll try'
    rw [run_op, exec_mkdir]
    by_cases hd : dirOk os w base = true
    · rw [if_pos hd]; exact run_createDirAll_counter os k hk rest _ _
    · rw [if_neg hd]; rfl

theorem run_processFile_counter (os : Os) (convert : Path → Path → Prog Unit (Except FileError (Handler Unit E)))
    (hc : ∀ i o w, (run os (convert i o) w).1.counter = w.counter) (inputDir outputDir path : Path) (w : World Unit) :
    (run os (processFile convert inputDir outputDir path) w).1.counter = w.counter := by
  unfold processFile
  split
  · rfl
  next rel _ =>
    have hw : ∀ w, (run os (.op (.fileLen path) fun len =>
        (convert path (outputDir ++ rel)).bind fun r => .ret (r.map fun _ => len.getD 0)) w).1.counter = w.counter := by
      intro w
      rw [run_op]
      simp only [exec]
      rw [run_bind]
      have := hc path (outputDir ++ rel) w
      rcases hr : run os (convert path (outputDir ++ rel)) w with ⟨w1, _ | a⟩
      · rw [hr] at this; exact this
      · rw [hr] at this; exact this
    dsimp only
    split
    · exact hw w
    · exact run_createDirAll_counter os _ hw _ _ _

/-! ## Schedules -/

/-- `entries` have been found below `inputDir`. -/
structure Listed (ls : Listing) (w : World Unit) (inputDir : Path) (entries : List Path) : Prop where
  found : ∃ fuel, findAllFiles ls w.dirs fuel inputDir = some entries
  names : ∀ d, (ls d).Nodup

/-- A batch: `entries` have been found below `inputDir`, and no output would replace an input. -/
structure Batch (ls : Listing) (w : World Unit) (inputDir outputDir : Path) (entries : List Path) : Prop where
  found : ∃ fuel, findAllFiles ls w.dirs fuel inputDir = some entries
  names : ∀ d, (ls d).Nodup
  separate : ∀ rel rel', inputDir ++ rel ∈ entries → inputDir ++ rel' ∈ entries → outputDir ++ rel ≠ inputDir ++ rel'

/-- Directories that do not lie one in the other are separate. -/
theorem separate_of_disjoint {inputDir outputDir : Path} (h1 : ¬ inputDir <+: outputDir) (h2 : ¬ outputDir <+: inputDir)
    (rel rel' : Path) : outputDir ++ rel ≠ inputDir ++ rel' := by
  intro h
  have ha : outputDir <+: outputDir ++ rel := List.prefix_append ..
  have hb : inputDir <+: outputDir ++ rel := h ▸ List.prefix_append ..
  rcases List.prefix_or_prefix_of_prefix ha hb with h | h
  · exact h2 h
  · exact h1 h

/-- Where the output of a file goes. -/
def targetOf (inputDir outputDir path : Path) : Path := outputDir ++ path.drop inputDir.length

/-- The programs of a batch: transforming or untransforming all entries. -/
def transformJobs (os : Os) (hs : List (Handler Unit E)) (bundle : Bundle Unit E) (inputDir outputDir : Path)
    (entries : List Path) (i : Fin entries.length) : Prog Unit (Except FileError Nat) :=
  job (processFileTransform os hs bundle inputDir outputDir entries[i])

/-- See `transformJobs`. -/
def untransformJobs (os : Os) (hs : List (Handler Unit E)) (inputDir outputDir : Path)
    (entries : List Path) (i : Fin entries.length) : Prog Unit (Except FileError Nat) :=
  job (processFileUntransform os hs inputDir outputDir entries[i])

/-- The programs of one of the two commands. -/
inductive IsBatch (os : Os) (hs : List (Handler Unit E)) (inputDir outputDir : Path) (entries : List Path) :
    (Fin entries.length → Prog Unit (Except FileError Nat)) → Prop where
  | transform (bundle : Bundle Unit E) :
      IsBatch os hs inputDir outputDir entries (transformJobs os hs bundle inputDir outputDir entries)
  | untransform : IsBatch os hs inputDir outputDir entries (untransformJobs os hs inputDir outputDir entries)

section
variable {os : Os} {hs : List (Handler Unit E)} {ls : Listing} {w0 : World Unit} {inputDir outputDir : Path}
  {entries : List Path} {jobs : Fin entries.length → Prog Unit (Except FileError Nat)}

theorem Batch.listed (h : Batch ls w0 inputDir outputDir entries) : Listed ls w0 inputDir entries := ⟨h.found, h.names⟩

theorem Listed.rel (h : Listed ls w0 inputDir entries) (outputDir : Path) (i : Fin entries.length) :
    ∃ rel, rel ≠ [] ∧ entries[i] = inputDir ++ rel ∧ targetOf inputDir outputDir entries[i] = outputDir ++ rel ∧
      w0.dirs (inputDir ++ rel) = false ∧ ∀ r, r ≠ [] → r <+: rel → r ≠ rel → w0.dirs (inputDir ++ r) = true := by
  obtain ⟨fuel, hf⟩ := h.found
  obtain ⟨rel, h1, h2, h3, _, h4⟩ := ((C39_find_all_files ls h.names w0.dirs fuel inputDir entries hf).2 entries[i]).1
    (List.getElem_mem _)
  refine ⟨rel, h1, h2, ?_, h2 ▸ h3, h4⟩
  unfold targetOf
  rw [h2, List.drop_left]

theorem Batch.rel (h : Batch ls w0 inputDir outputDir entries) (i : Fin entries.length) :
    ∃ rel, rel ≠ [] ∧ entries[i] = inputDir ++ rel ∧ targetOf inputDir outputDir entries[i] = outputDir ++ rel ∧
      w0.dirs (inputDir ++ rel) = false ∧ ∀ r, r ≠ [] → r <+: rel → r ≠ rel → w0.dirs (inputDir ++ r) = true :=
  h.listed.rel outputDir i

/-- The areas of the programs of a batch. -/
def areas (inputDir outputDir : Path) (entries : List Path) (i : Fin entries.length) : Area :=
  areaOf inputDir outputDir (entries[i].drop inputDir.length)

theorem areas_eq {i : Fin entries.length} {rel : Path} (h : entries[i] = inputDir ++ rel) :
    areas inputDir outputDir entries i = areaOf inputDir outputDir rel := by
  unfold areas
  rw [h, List.drop_left]

theorem Listed.foot (h : Listed ls w0 inputDir entries) (hj : IsBatch os hs inputDir outputDir entries jobs)
    (i : Fin entries.length) : Foot (areas inputDir outputDir entries i) false (jobs i) := by
  obtain ⟨rel, hne, he, _⟩ := h.rel outputDir i
  rw [areas_eq he]
  cases hj with
  | transform bundle =>
    unfold transformJobs processFileTransform
    rw [he]
    exact foot_job hne (foot_convert (a := areaOf inputDir outputDir rel) hs bundle).1
  | untransform =>
    unfold untransformJobs processFileUntransform
    rw [he]
    exact foot_job hne (foot_convert (a := areaOf inputDir outputDir rel) hs Bundle.new).2

theorem Listed.self (h : Listed ls w0 inputDir entries) (outputDir : Path) (i : Fin entries.length) :
    (areas inputDir outputDir entries i).out ∉ (areas inputDir outputDir entries i).ds := by
  obtain ⟨rel, hne, he, _⟩ := h.rel outputDir i
  rw [areas_eq he]
  intro hm
  have := ((List.mem_inits _ _).1 hm).length_le
  have hp := List.length_pos_iff.2 hne
  simp [areaOf] at this
  omega

theorem Batch.foot (h : Batch ls w0 inputDir outputDir entries) (hj : IsBatch os hs inputDir outputDir entries jobs)
    (i : Fin entries.length) : Foot (areas inputDir outputDir entries i) false (jobs i) := h.listed.foot hj i

theorem Batch.self (h : Batch ls w0 inputDir outputDir entries) (i : Fin entries.length) :
    (areas inputDir outputDir entries i).out ∉ (areas inputDir outputDir entries i).ds := h.listed.self outputDir i

theorem not_in_dirs {rel rel' : Path} (hne : rel ≠ []) (hf : w0.dirs (inputDir ++ rel) = false)
    (hd : ∀ r, r ≠ [] → r <+: rel' → r ≠ rel' → w0.dirs (inputDir ++ r) = true) :
    outputDir ++ rel ∉ (outputDir ++ rel').dropLast.inits := by
  intro hm
  have h1 := (List.mem_inits _ _).1 hm
  have h2 : outputDir ++ rel <+: outputDir ++ rel' := h1.trans (List.dropLast_prefix _)
  have h3 : rel <+: rel' := (List.prefix_append_right_inj _).1 h2
  have h4 : rel ≠ rel' := by
    rintro rfl
    have := h1.length_le
    have hp := List.length_pos_iff.2 hne
    simp at this
    omega
  rw [hd rel hne h3 h4] at hf
  exact nomatch hf

theorem Listed.apart (h : Listed ls w0 inputDir entries) {i j : Fin entries.length} (hij : i ≠ j)
    (hfree : targetOf inputDir outputDir entries[j] ≠ entries[i]) :
    Apart (areas inputDir outputDir entries i) (areas inputDir outputDir entries j) := by
  obtain ⟨rel, hne, he, _, hf, hd⟩ := h.rel outputDir i
  obtain ⟨rel', hne', he', ht', hf', hd'⟩ := h.rel outputDir j
  rw [areas_eq he, areas_eq he']
  have hr : rel ≠ rel' := by
    rintro rfl
    obtain ⟨fuel, hfd⟩ := h.found
    have hnd := (C39_find_all_files ls h.names w0.dirs fuel inputDir entries hfd).1
    exact hij (Fin.ext ((List.Nodup.getElem_inj_iff hnd).1 (he.trans he'.symm)))
  refine ⟨?_, ?_, not_in_dirs hne' hf' hd, not_in_dirs hne hf hd'⟩
  · rw [ht', he] at hfree; exact hfree
  · intro e
    exact hr (List.append_cancel_left e).symm

theorem Batch.apart (h : Batch ls w0 inputDir outputDir entries) (i j : Fin entries.length) (hij : i ≠ j) :
    Apart (areas inputDir outputDir entries i) (areas inputDir outputDir entries j) := by
  obtain ⟨rel, _, he, _⟩ := h.rel i
  obtain ⟨rel', _, he', ht', _⟩ := h.rel j
  refine h.listed.apart hij ?_
  rw [ht', he]
  exact h.separate rel' rel (he' ▸ List.getElem_mem _) (he ▸ List.getElem_mem _)

theorem jobs_counter (hj : IsBatch os hs inputDir outputDir entries jobs) (i : Fin entries.length) (w : World Unit) :
    (run os (jobs i) w).1.counter - w.counter = bytes (run os (jobs i) w).2 := by
  have key : ∀ x : Prog Unit (Except FileError Nat), (∀ w, (run os x w).1.counter = w.counter) →
      (run os (job x) w).1.counter - w.counter = bytes (run os (job x) w).2 := by
    intro x hx
    rw [run_job, hx]
    simp
  cases hj with
  | transform bundle =>
    exact key _ fun w => run_processFile_counter os _ (fun a b w =>
      (C37_frame os w ⟨fun _ _ _ _ => none, fun _ _ _ => none, fun _ _ _ => none, fun _ _ _ => none⟩ hs a b [] bundle
        none).2.2.1.2.2) _ _ _ _
  | untransform =>
    exact key _ fun w => run_processFile_counter os _ (fun a b w =>
      (C37_frame os w ⟨fun _ _ _ _ => none, fun _ _ _ => none, fun _ _ _ => none, fun _ _ _ => none⟩ hs a b []
        Bundle.new none).2.2.2.1.2.2) _ _ _ _

/-- **C39** (schedules): however the threads are scheduled, once all files are done each has had the result and has left the
output file that it has on its own; other files are as before; the directories are those that were there and those
that some file needs; the byte counter has grown by the sizes of the files that succeeded. -/
theorem C39_schedule_independent_partial (hb : Batch ls w0 inputDir outputDir entries)
    (hj : IsBatch os hs inputDir outputDir entries jobs) {c : Config (Fin entries.length) Unit (Except FileError Nat)}
    (hs : Steps os ⟨w0, jobs⟩ c) (he : ∀ i, (ended (c.progs i)).isSome) :
    (∀ i, ended (c.progs i) = some (run os (jobs i) w0).2) ∧
    (∀ i, c.world.files (targetOf inputDir outputDir entries[i]) =
      (run os (jobs i) w0).1.files (targetOf inputDir outputDir entries[i])) ∧
    (∀ q, (∀ i : Fin entries.length, q ≠ targetOf inputDir outputDir entries[i]) → c.world.files q = w0.files q) ∧
    (∀ q, c.world.dirs q = true ↔ w0.dirs q = true ∨ ∃ i, (run os (jobs i) w0).1.dirs q = true) ∧
    c.world.counter = w0.counter + ∑ i, bytes (run os (jobs i) w0).2 := by
  obtain ⟨h1, h2, h3, h4, h5⟩ := steps_final hb.self hb.apart (hb.foot hj) hs he
  refine ⟨h1, h2, h3, h4, ?_⟩
  rw [h5]
  simp only [jobs_counter hj]

/-- What can be left of a program after one call. -/
inductive Sub {σ α : Type} : Prog σ α → Prog σ α → Prop where
  | next {β : Type} (s : Sys σ β) (k : β → Prog σ α) (b : β) : Sub (k b) (.op s k)
  | panic {β : Type} (s : Sys σ β) (k : β → Prog σ α) : Sub .panic (.op s k)

theorem sub_wf {σ α : Type} : WellFounded (Sub (σ := σ) (α := α)) := by
  have hp : Acc (Sub (σ := σ) (α := α)) .panic := ⟨_, fun y h => nomatch h⟩
  refine ⟨fun x => ?_⟩
  induction x with
  | ret a => exact ⟨_, fun y h => nomatch h⟩
  | panic => exact hp
  | op s k ih =>
    refine ⟨_, fun y h => ?_⟩
    cases h with
    | next _ _ b => exact ih b
    | panic => exact hp

/-- **C39** (end): every execution comes to an end: it can go on until all programs have ended, and not for ever. -/
theorem C39_terminates {ι σ α : Type} [DecidableEq ι] [Fintype ι] (os : Os) (c : Config ι σ α) :
    Acc (fun d c => Step os c d) c ∧ ((∃ i, ended (c.progs i) = none) → ∃ d, Step os c d) := by
  constructor
  · have hw : WellFounded (Pi.Lex (WellOrderingRel (α := ι)) (fun {_} => Sub (σ := σ) (α := α))) :=
      Pi.Lex.wellFounded _ fun _ => sub_wf
    refine Subrelation.accessible (r := InvImage _ Config.progs) ?_ (InvImage.accessible _ (hw.apply _))
    rintro d c ⟨i, s, k, h⟩
    refine ⟨i, fun j hj => ?_, ?_⟩
    · have : j ≠ i := by rintro rfl; exact irrefl _ hj
      simp [this]
    · simp only [if_true]
      rw [h]
      cases (exec os s c.world).2 with
      | none => exact .panic s k
      | some b => exact .next s k b
  · rintro ⟨i, hi⟩
    rcases hp : c.progs i with a | _ | ⟨s, k⟩
    · rw [hp] at hi; exact nomatch hi
    · rw [hp] at hi; exact nomatch hi
    · exact ⟨_, .call i s k hp⟩

/-! ## One after the other -/

theorem _root_.Dlt.Cli.Steps.trans {ι σ α : Type} [DecidableEq ι] {os : Os} {a b c : Config ι σ α} (h1 : Steps os a b)
    (h2 : Steps os b c) : Steps os a c := by
  induction h2 with
  | refl => exact h1
  | tail _ h ih => exact .tail ih h

/-- A program that has the processor to itself. -/
theorem run_steps {ι σ α : Type} [DecidableEq ι] (os : Os) (i : ι) : ∀ (x : Prog σ α) (c : Config ι σ α), c.progs i = x →
    ∃ d, Steps os c d ∧ d.world = (run os x c.world).1 ∧ ended (d.progs i) = some (run os x c.world).2 ∧
      ∀ j, j ≠ i → d.progs j = c.progs j
  | .ret a, c, h => ⟨c, .refl c, rfl, by rw [h]; rfl, fun _ _ => rfl⟩
  | .panic, c, h => ⟨c, .refl c, rfl, by rw [h]; rfl, fun _ _ => rfl⟩
  | .op s k, c, h => by
    have hstep := Step.call (os := os) i s k h
    rcases he : exec os s c.world with ⟨w1, _ | b⟩
    · rw [he] at hstep
      refine ⟨_, .tail (.refl c) hstep, ?_, ?_, fun j hj => by simp [hj]⟩
      · rw [run_op, he]
      · rw [run_op, he]; simp [resume, ended]
    · rw [he] at hstep
      obtain ⟨d, h1, h2, h3, h4⟩ := run_steps os i (k b) _ (by simp [resume] :
        (⟨w1, fun j => if j = i then resume k (some b) else c.progs j⟩ : Config ι σ α).progs i = k b)
      refine ⟨d, (Steps.tail (.refl c) hstep).trans h1, ?_, ?_, fun j hj => ?_⟩
      · rw [h2, run_op, he]
      · rw [h3, run_op, he]
      · rw [h4 j hj]; simp [hj]

/-- What has ended has had the result that it has alone. -/
theorem Batch.result (hb : Batch ls w0 inputDir outputDir entries) (hj : IsBatch os hs inputDir outputDir entries jobs)
    {c : Config (Fin entries.length) Unit (Except FileError Nat)} (hst : Steps os ⟨w0, jobs⟩ c) {i : Fin entries.length}
    {r : Option (Except FileError Nat)} (he : ended (c.progs i) = some r) : r = (run os (jobs i) w0).2 := by
  obtain ⟨_, s, h⟩ := Inv.steps hb.self hb.apart (hb.foot hj) hst
  rw [← h.alone i]
  rcases hc : c.progs i with a | _ | ⟨sys, k⟩
  · rw [hc] at he; exact (Option.some.inj he).symm
  · rw [hc] at he; exact (Option.some.inj he).symm
  · rw [hc] at he; exact nomatch he

theorem seq_steps (hb : Batch ls w0 inputDir outputDir entries) (hj : IsBatch os hs inputDir outputDir entries jobs)
    (hnp : ∀ i, (run os (jobs i) w0).2 ≠ none) : ∀ (order : List (Fin entries.length)), order.Nodup →
      ∀ (c : Config (Fin entries.length) Unit (Except FileError Nat)), Steps os ⟨w0, jobs⟩ c →
      (∀ i ∈ order, c.progs i = jobs i) →
      ∃ d results, Steps os ⟨w0, jobs⟩ d ∧ runSeq os jobs order c.world = (d.world, some results) ∧
        results.map some = order.map (fun i => (run os (jobs i) w0).2) ∧ (∀ i ∈ order, (ended (d.progs i)).isSome) ∧
        (∀ i, i ∉ order → d.progs i = c.progs i)
  | [], _, c, hc, _ => ⟨c, [], hc, rfl, rfl, by simp, fun _ _ => rfl⟩
  | i :: order, hn, c, hc, hi => by
    rw [List.nodup_cons] at hn
    obtain ⟨d, h1, h2, h3, h4⟩ := run_steps os i (jobs i) c (hi i (by simp))
    have hd := hc.trans h1
    have hr := hb.result hj hd h3
    obtain ⟨e, results, g1, g2, g3, g4, g5⟩ := seq_steps hb hj hnp order hn.2 d hd fun j hjm => by
      rw [h4 j (fun e => hn.1 (e ▸ hjm))]
      exact hi j (by simp [hjm])
    obtain ⟨a, ha⟩ := Option.ne_none_iff_exists'.1 (hnp i)
    refine ⟨e, a :: results, g1, ?_, ?_, ?_, ?_⟩
    · rw [runSeq]
      rcases hrun : run os (jobs i) c.world with ⟨w1, r⟩
      rw [hrun] at h2 hr
      obtain rfl : r = some a := hr.trans ha
      dsimp only at h2 ⊢
      rw [← h2, g2]
    · rw [List.map_cons, List.map_cons, g3, ha]
    · intro j hjm
      by_cases hji : j = i
      · subst hji
        rw [g5 j hn.1, h3]; rfl
      · exact g4 j ((List.mem_cons.1 hjm).resolve_left hji)
    · intro j hjm
      rw [List.mem_cons, not_or] at hjm
      rw [g5 j hjm.2, h4 j hjm.1]

/-- **C39** (one after the other): if no file makes its program panic, the loop without threads, over the files in any order,
leaves the same files, directories and byte count as any execution with threads, and has the same results. -/
theorem C39_sequential_partial (hb : Batch ls w0 inputDir outputDir entries) (hj : IsBatch os hs inputDir outputDir entries jobs)
    (hnp : ∀ i, (run os (jobs i) w0).2 ≠ none) (order : List (Fin entries.length))
    (ho : order.Perm (List.finRange entries.length)) {c : Config (Fin entries.length) Unit (Except FileError Nat)}
    (hs : Steps os ⟨w0, jobs⟩ c) (he : ∀ i, (ended (c.progs i)).isSome) :
    ∃ results, runSeq os jobs order w0 = (c.world, some results) ∧
      results.map some = order.map fun i => (run os (jobs i) w0).2 := by
  have hn : order.Nodup := ho.nodup_iff.2 (List.nodup_finRange _)
  have hm : ∀ i, i ∈ order := fun i => ho.mem_iff.2 (List.mem_finRange i)
  obtain ⟨d, results, h1, h2, h3, h4, _⟩ := seq_steps hb hj hnp order hn _ (.refl _) fun _ _ => rfl
  refine ⟨results, ?_, h3⟩
  rw [h2]
  obtain ⟨_, a2, a3, a4, a5⟩ := C39_schedule_independent_partial hb hj hs he
  obtain ⟨_, b2, b3, b4, b5⟩ := C39_schedule_independent_partial hb hj h1 fun i => h4 i (hm i)
  have : d.world = c.world := by
    rcases hw : d.world with ⟨f1, d1, c1, s1⟩
    rcases hw' : c.world with ⟨f2, d2, c2, s2⟩
    rw [hw] at b2 b3 b4 b5
    rw [hw'] at a2 a3 a4 a5
    have e1 : f1 = f2 := by
      funext q
      by_cases hq : ∃ i : Fin entries.length, q = targetOf inputDir outputDir entries[i]
      · obtain ⟨i, rfl⟩ := hq
        exact (b2 i).trans (a2 i).symm
      · have hq' : ∀ i : Fin entries.length, q ≠ targetOf inputDir outputDir entries[i] := fun i e => hq ⟨i, e⟩
        exact (b3 q hq').trans (a3 q hq').symm
    have e2 : d1 = d2 := by
      funext q
      exact Bool.eq_iff_iff.2 ((b4 q).trans (a4 q).symm)
    have e3 : c1 = c2 := b5.trans a5.symm
    rw [e1, e2, e3]
  rw [this]

/-! ## No panic -/

theorem withInput_cases (os : Os) (p : Path) (k : Buf → Prog Unit (Except FileError α)) (w : World Unit) :
    (∃ e, run os (withInput os p k) w = (w, some (.error (.io e)))) ∨
    (∃ data n, w.files p = some data ∧ n = data.length % (os.usizeMax + 1) ∧
      run os (withInput os p k) w = run os (k (data.take n)) w) := by
  rcases hf : w.files p with _ | data
  · exact .inl ⟨_, by simp [withInput, try', run, exec, hf]; rfl⟩
  by_cases h1 : os.canOpen p
  · by_cases h2 : os.canSize p
    · by_cases h3 : os.canMap p (data.length % (os.usizeMax + 1))
      · refine .inr ⟨data, _, rfl, rfl, ?_⟩
        simp [withInput, try', run, exec, hf, h1, h2, h3, Nat.mod_le]
      · exact .inl ⟨_, by simp [withInput, try', run, exec, hf, h1, h2, h3]; rfl⟩
    · exact .inl ⟨_, by simp [withInput, try', run, exec, hf, h1, h2]; rfl⟩
  · exact .inl ⟨_, by simp [withInput, try', run, exec, hf, h1]; rfl⟩

theorem intoFile_cases {os : Os} (hw : os.Wf) (p : Path) (n : Nat) (f : Buf → Unit → Option (Res Unit α)) (w : World Unit)
    (hf : ∀ fresh : Buf, fresh.length = n → ∃ o st r, f fresh () = some (o, st, r) ∧ o.length = n) :
    (∃ w' e, run os (intoFile p n f) w = (w', some (.error (.io e)))) ∨
    (∃ fresh o st r, fresh.length = n ∧ f fresh () = some (o, st, r) ∧ o.length = n ∧
      run os (intoFile p n f) w = (w.after p o st, some (r.mapError .transform))) := by
  by_cases hd : (w.dirs p.dropLast && !w.dirs p) = true
  · rcases hc : os.create p n (w.files p) with ⟨c, ok⟩
    cases ok with
    | false => exact .inl ⟨w.setFile p c, .fileHandle, by simp [intoFile, try', run, exec, hd, hc]⟩
    | true =>
      have := hw p n (w.files p) (by rw [hc])
      rw [hc] at this
      obtain ⟨fresh, rfl, hl⟩ := this
      by_cases hm : os.canMapWrite p n = true
      · obtain ⟨o, st, r, hf1, ho⟩ := hf fresh hl
        rw [Bool.and_eq_true, Bool.not_eq_true'] at hd
        exact .inr ⟨fresh, o, st, r, hl, hf1, ho, (run_intoFile ⟨hd.1, hd.2, hc, hl, hm⟩ f).2 o st r hf1 ho⟩
      · exact .inl ⟨w.setFile p (some fresh), .memoryMapping, by
          simp [intoFile, try', run, exec, hd, hc, hm, World.setFile]⟩
  · exact .inl ⟨w, .fileHandle, by simp [intoFile, try', run, exec, hd]⟩

theorem dds_convert_no_panic {os : Os} (hwf : os.Wf) {p : Platform} (hw : Wide p) (hc : p.overflowChecks = false)
    (dbg : E → String) (bundle : Bundle Unit E) (inp out : Path) (hne : inp ≠ out) (w : World Unit) :
    (run os (transformFileWithMultipleHandlers os (allHandlers p dbg) inp out bundle) w).2 ≠ none ∧
    (run os (untransformFileWithMultipleHandlers os (allHandlers (E := E) p dbg) inp out) w).2 ≠ none := by
  constructor
  · unfold transformFileWithMultipleHandlers
    rcases withInput_cases os inp (fun input => tryHandlers
        (fun h => h.canHandle input (extractLowercaseExtension os inp))
        (fun h => intoFile out input.length fun output st => if inp = out then none
          else (transformSliceWithBundle h input output bundle st).map fun (o, st, r) => (o, st, r.map fun _ => h))
        (.error (.transform .noSupportedHandler)) (allHandlers p dbg)) w with ⟨e, h⟩ | ⟨data, n, _, _, h⟩
    · rw [h]; simp
    · rw [h, allHandlers, tryHandlers, run_op]
      generalize data.take n = input
      obtain ⟨yes, hy⟩ := (C59_dds_total p hw hc dbg bundle input input () rfl).2.2.1 (extractLowercaseExtension os inp)
      have hd : (handler (E := E) p dbg).canHandle input (extractLowercaseExtension os inp) () = some ((), yes) := by
        change (canHandle p input _).map _ = _
        rw [hy]; rfl
      simp only [exec, hd]
      cases yes with
      | false => simp [tryHandlers, run]
      | true =>
        rw [if_pos rfl]
        have hf : ∀ fresh : Buf, fresh.length = input.length → ∃ o st r,
            (if inp = out then none else (transformSliceWithBundle (handler p dbg) input fresh bundle ()).map fun (o, st, r) =>
              (o, st, r.map fun _ => handler p dbg)) = some (o, st, (r : Except TransformError (Handler Unit E))) ∧
              o.length = input.length := by
          intro fresh hl
          obtain ⟨o, st', r, ht, ho⟩ := (C59_dds_total p hw hc dbg bundle input fresh () hl).1
          rw [if_neg hne]
          unfold transformSliceWithBundle
          rw [if_neg (by omega)]
          have ht' : (handler p dbg).transformBundle bundle input fresh () = some (o, st', r) := ht
          rw [ht']
          exact ⟨o, st', r.map fun _ => handler p dbg, rfl, by omega⟩
        rcases intoFile_cases hwf out input.length (fun output st => if inp = out then none
            else (transformSliceWithBundle (handler p dbg) input output bundle st).map fun (o, st, r) =>
              (o, st, r.map fun _ => handler p dbg)) { w with st := () } hf with ⟨w', e, h⟩ | ⟨fresh, o, st, r, _, _, _, h⟩
        · rw [h]; simp
        · rw [h]; simp
  · unfold untransformFileWithMultipleHandlers
    rcases withInput_cases os inp (fun input => tryHandlers
        (fun h => h.canHandleUntransform input (extractLowercaseExtension os inp))
        (fun h => intoFile out input.length fun output st => if inp = out then none
          else (untransformSlice h input output st).map fun (o, st, r) => (o, st, r.map fun _ => h))
        (.error (.transform .noSupportedHandler)) (allHandlers (E := E) p dbg)) w with ⟨e, h⟩ | ⟨data, n, _, _, h⟩
    · rw [h]; simp
    · rw [h, allHandlers, tryHandlers, run_op]
      generalize data.take n = input
      obtain ⟨yes, hy⟩ := (C59_dds_total p hw hc dbg bundle input input () rfl).2.2.2 (extractLowercaseExtension os inp)
      have hd : (handler (E := E) p dbg).canHandleUntransform input (extractLowercaseExtension os inp) () =
          some ((), yes) := by
        change (canHandleUntransform p input _).map _ = _
        rw [hy]; rfl
      simp only [exec, hd]
      cases yes with
      | false => simp [tryHandlers, run]
      | true =>
        rw [if_pos rfl]
        have hf : ∀ fresh : Buf, fresh.length = input.length → ∃ o st r,
            (if inp = out then none else (untransformSlice (handler (E := E) p dbg) input fresh ()).map fun (o, st, r) =>
              (o, st, r.map fun _ => handler (E := E) p dbg)) = some (o, st, (r : Except TransformError (Handler Unit E))) ∧
              o.length = input.length := by
          intro fresh hl
          obtain ⟨o, r, ht, ho⟩ := (C59_dds_total p hw hc dbg bundle input fresh () hl).2.1
          rw [if_neg hne]
          unfold untransformSlice
          rw [if_neg (by omega)]
          have ht' : (handler (E := E) p dbg).untransform input fresh () = some (o, (), r) := by
            change (untransform p input fresh).map _ = _
            rw [ht]; rfl
          rw [ht']
          exact ⟨o, (), r.map fun _ => handler p dbg, rfl, by omega⟩
        rcases intoFile_cases hwf out input.length (fun output st => if inp = out then none
            else (untransformSlice (handler (E := E) p dbg) input output st).map fun (o, st, r) =>
              (o, st, r.map fun _ => handler (E := E) p dbg)) { w with st := () } hf with
          ⟨w', e, h⟩ | ⟨fresh, o, st, r, _, _, _, h⟩
        · rw [h]; simp
        · rw [h]; simp

theorem createDirAll_no_panic (os : Os) (k : Prog Unit (Except FileError α)) (hk : ∀ w, (run os k w).2 ≠ none) :
    ∀ (rest : List String) (base : Path) (w : World Unit), (run os (createDirAll base rest k) w).2 ≠ none
  | [], base, w => by
    unfold createDirAll try'
    rw [run_op, exec_mkdir]
    by_cases hd : dirOk os w base = true
    · rw [if_pos hd]; exact hk _
    · rw [if_neg hd]; simp [run]
  | name :: rest, base, w => by
    unfold createDirAll try'
    rw [run_op, exec_mkdir]
    by_cases hd : dirOk os w base = true
    · rw [if_pos hd]; exact createDirAll_no_panic os k hk rest _ _
    · rw [if_neg hd]; simp [run]

/-- **C39** (no panic): the tool, built for 64-bit addresses and without overflow checks, never panics on a batch, so
`C39_sequential_partial` applies to it. -/
theorem C39_no_panic (hwf : os.Wf) {p : Platform} (hw : Wide p) (hc : p.overflowChecks = false) (dbg : E → String)
    (hb : Batch ls w0 inputDir outputDir entries) (hj : IsBatch os (allHandlers p dbg) inputDir outputDir entries jobs)
    (i : Fin entries.length) : (run os (jobs i) w0).2 ≠ none := by
  obtain ⟨rel, hne, he, _⟩ := hb.rel i
  have hm : inputDir ++ rel ∈ entries := he ▸ List.getElem_mem _
  have hio : inputDir ++ rel ≠ outputDir ++ rel := (hb.separate rel rel hm hm).symm
  have key : ∀ convert : Path → Path → Prog Unit (Except FileError (Handler Unit E)),
      (∀ w, (run os (convert (inputDir ++ rel) (outputDir ++ rel)) w).2 ≠ none) →
      (run os (job (processFile convert inputDir outputDir (inputDir ++ rel))) w0).2 ≠ none := by
    intro convert hconv
    rw [run_job]
    dsimp only
    unfold processFile
    rw [stripPrefix_append]
    dsimp only
    rw [if_neg (by simp [hne])]
    refine createDirAll_no_panic os _ (fun w => ?_) _ _ _
    rw [run_op]
    simp only [exec]
    rw [run_bind]
    have := hconv w
    rcases hr : run os (convert (inputDir ++ rel) (outputDir ++ rel)) w with ⟨w1, _ | a⟩
    · rw [hr] at this; exact absurd rfl this
    · simp [run]
  cases hj with
  | transform bundle =>
    unfold transformJobs processFileTransform
    rw [he]
    exact key _ fun w => (dds_convert_no_panic hwf hw hc dbg bundle _ _ hio w).1
  | untransform =>
    unfold untransformJobs processFileUntransform
    rw [he]
    exact key _ fun w => (dds_convert_no_panic hwf hw hc dbg Bundle.new _ _ hio w).2

end

/-! ## Examples -/

/-- Two directories with two files. -/
def twoFiles : World Unit where
  files q := if q = ["a", "x"] then some smallFile else if q = ["a", "b", "x"] then some smallFile else none
  dirs q := q = [] || q = ["a"] || q = ["a", "b"]
  counter := 0
  st := ()

/-- What is listed. -/
def twoListing : Listing := fun q => if q = ["a"] then ["x", "b"] else if q = ["a", "b"] then ["x"] else []

/-- The programs of `dxt-lossless-transform-cli transform --input /a --output out --preset low`. -/
def twoJobs (out : Path) (i : Fin 2) : Prog Unit (Except FileError Nat) :=
  transformJobs kindOs (allHandlers somePlatform fun _ : Unit => "") (Bundle.new.withBc1Manual .new) ["a"] out
    [["a", "x"], ["a", "b", "x"]] i

/-- Non-vacuity: with the output elsewhere the hypotheses of the theorems hold, and both files are converted. -/
example : Batch twoListing twoFiles ["a"] ["c"] [["a", "x"], ["a", "b", "x"]] ∧ kindOs.Wf ∧
    (let r := runSeq kindOs (twoJobs ["c"]) [1, 0] twoFiles
     (r.1.files ["c", "x"]).map (List.take 4) = some [64, 0, 0, 0] ∧ (r.1.files ["c", "b", "x"]).map List.length = some 137 ∧
      r.1.counter = 274 ∧ r.1.dirs ["c", "b"] ∧ r.2.isSome) := by
  refine ⟨⟨⟨3, by decide +kernel⟩, ?_, fun rel rel' _ _ => separate_of_disjoint (by decide) (by decide) rel rel'⟩, ?_,
    by decide +kernel⟩
  · intro d
    unfold twoListing
    split
    · decide
    · split <;> decide
  · intro p n old _
    exact ⟨_, rfl, List.length_replicate⟩

/-- Without the hypothesis that no output replaces an input (`Batch.separate`) the claim is false: with the output directory
`/a/b` inside the input directory `/a` the result depends on the order.  If `/a/x` comes first its output replaces
`/a/b/x`, which is then refused. -/
theorem C39_nested_depends_on_order :
    findAllFiles twoListing twoFiles.dirs 3 ["a"] = some [["a", "x"], ["a", "b", "x"]] ∧
    (let r := runSeq kindOs (twoJobs ["a", "b"]) [0, 1] twoFiles
     (r.1.files ["a", "b", "b", "x"]).isSome = false ∧ r.1.counter = 137) ∧
    (let r := runSeq kindOs (twoJobs ["a", "b"]) [1, 0] twoFiles
     (r.1.files ["a", "b", "b", "x"]).isSome = true ∧ r.1.counter = 274) := by
  decide +kernel

end Dlt.Props
