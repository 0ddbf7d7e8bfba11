import Verif.Props.Again
import Verif.Props.CliNested
/-!
# C114: a command that was killed can be repeated
-/

namespace Dlt.Props

open Dlt.FileFormats Dlt.FileIo Dlt.FileIo.Prog Dlt.Cli Dlt.Dds

variable {E : Type}

section
variable {os os' os'' : Os} (p : Platform) (m m' : Machine) (dbg : E → String) (dir : Direction E) {ls ls' ls'' : Listing} {w0 w1 : World Unit}
  {inputDir outputDir : Path} {entries entries' entries'' : List Path}

theorem Batch.free {ls : Listing} {w : World Unit} {entries : List Path} (hb : Batch ls w inputDir outputDir entries) (i j : Fin entries.length) :
    targetOf inputDir outputDir entries[j] ≠ entries[i] := by
  obtain ⟨rel, _, h1, _⟩ := hb.rel i
  obtain ⟨rel', _, h2, h3, _⟩ := hb.rel j
  rw [h3, h1]
  exact hb.separate rel' rel (h2 ▸ List.getElem_mem _) (h1 ▸ List.getElem_mem _)

/-- **C114** (nothing is lost): the command is killed at any moment.  What lies in the files that it was about to write is left open (`w1`), as
a mapping may have been written in part; all other files, the inputs among them, are what they were. -/
theorem C114_killed (hb : Batch ls w0 inputDir outputDir entries) {c : Config (Fin entries.length) Unit (Except FileError Nat)}
    (hs : Steps os ⟨w0, commandJobs dir os p dbg inputDir outputDir entries⟩ c)
    (hw1 : ∀ q, (∀ i : Fin entries.length, q ≠ targetOf inputDir outputDir entries[i]) → w1.files q = c.world.files q) :
    (∀ q, (∀ i : Fin entries.length, q ≠ targetOf inputDir outputDir entries[i]) → w1.files q = w0.files q) ∧
    ∀ q ∈ entries, w1.files q = w0.files q := by
  have h := (C39_any_directory hb.listed (commandJobs_batch dir os p dbg inputDir outputDir entries) hs).1
  refine ⟨fun q hq => (hw1 q hq).trans (h q hq), fun q hq => ?_⟩
  obtain ⟨k, hk, rfl⟩ := List.getElem_of_mem hq
  have hne : ∀ j : Fin entries.length, entries[k] ≠ targetOf inputDir outputDir entries[j] := fun j => Ne.symm (hb.free ⟨k, hk⟩ j)
  exact (hw1 _ hne).trans (h _ hne)

/-- **C114** (repetition): the command is killed at any moment, and repeated in the world `w1` that this has left, perhaps on another CPU of the same byte
order, with other threads and under another schedule.  Elsewhere the same command has run to its end in the world as it was
before.  If both have found the files of the first attempt and have converted them with success, then all files are the same in the
end, in the output directory and everywhere else. -/
theorem C114_repeated (hwf' : os'.Wf) (hwf'' : os''.Wf) (hw : Wide p) (hm : m.endian = p.m.endian) (hm' : m'.endian = p.m.endian)
    (hb : Batch ls w0 inputDir outputDir entries) (c : Config (Fin entries.length) Unit (Except FileError Nat))
    (hs : Steps os ⟨w0, commandJobs dir os p dbg inputDir outputDir entries⟩ c)
    (hw1 : ∀ q, (∀ i : Fin entries.length, q ≠ targetOf inputDir outputDir entries[i]) → w1.files q = c.world.files q)
    (hb' : Batch ls' w1 inputDir outputDir entries') (hb'' : Batch ls'' w0 inputDir outputDir entries'')
    (hsame' : ∀ e, e ∈ entries' ↔ e ∈ entries) (hsame'' : ∀ e, e ∈ entries'' ↔ e ∈ entries)
    (hfit : ∀ q ∈ entries, ∀ data, w0.files q = some data → data.length ≤ os'.usizeMax ∧ data.length ≤ os''.usizeMax)
    (c' : Config (Fin entries'.length) Unit (Except FileError Nat))
    (hs' : Steps os' ⟨w1, commandJobs dir os' (withCpu p m) dbg inputDir outputDir entries'⟩ c')
    (hok' : ∀ i, ∃ n, ended (c'.progs i) = some (some (.ok n)))
    (c'' : Config (Fin entries''.length) Unit (Except FileError Nat))
    (hs'' : Steps os'' ⟨w0, commandJobs dir os'' (withCpu p m') dbg inputDir outputDir entries''⟩ c'')
    (hok'' : ∀ i, ∃ n, ended (c''.progs i) = some (some (.ok n))) : c'.world.files = c''.world.files := by
  obtain ⟨k1, k2⟩ := C114_killed p dbg dir hb hs hw1
  have hs2 := hs'
  rw [cpu_jobs p m dbg dir hm] at hs2
  rw [cpu_jobs p m' dbg dir hm'] at hs''
  obtain ⟨_, _, a3, _⟩ := C39_schedule_independent_partial hb'' (commandJobs_batch dir os'' p dbg inputDir outputDir entries'') hs''
    (fun i => by obtain ⟨n, h⟩ := hok'' i; rw [h]; rfl)
  obtain ⟨_, _, b3, _⟩ := C39_schedule_independent_partial hb' (commandJobs_batch dir os' p dbg inputDir outputDir entries') hs2
    (fun i => by obtain ⟨n, h⟩ := hok' i; rw [h]; rfl)
  funext q
  by_cases hq : ∃ i : Fin entries'.length, q = targetOf inputDir outputDir entries'[i]
  · obtain ⟨i', rfl⟩ := hq
    have hmem : entries'[i'] ∈ entries := (hsame' _).1 (List.getElem_mem _)
    obtain ⟨k, hk, hki⟩ := List.getElem_of_mem ((hsame'' _).2 hmem)
    let i : Fin entries''.length := ⟨k, hk⟩
    have hi : entries''[i] = entries'[i'] := hki
    obtain ⟨n', h2⟩ := hok' i'
    obtain ⟨n, h1⟩ := hok'' i
    have hin : w1.files entries'[i'] = w0.files entries'[i'] := k2 _ hmem
    cases hd : w0.files entries'[i'] with
    | none =>
      obtain ⟨g, _⟩ := C39_one_file_partial hb''.listed (commandJobs_batch dir os'' p dbg inputDir outputDir entries'') hs'' i
        (fun j _ => hb''.free i j) (by rw [h1]; rfl)
      rw [h1, Option.some.injEq] at g
      obtain ⟨rel, hrel, hr, _⟩ := hb''.rel i
      rw [commandJobs_eq, hr] at g
      rw [← hi, hr] at hd
      exact absurd g.symm (job_missing hrel hd n)
    | some data =>
      obtain ⟨hf', hf''⟩ := hfit entries'[i'] hmem data hd
      obtain ⟨_, o, _, h3, h4⟩ := C99_same_bytes_same_file p m dbg dir hwf'' hwf' hw hm hb''.listed hb'.listed c'' hs'' c' hs' i i' (hb''.free i) (hb'.free i')
        data (hi ▸ hd) (hin.trans hd) hf'' hf' n n' h1 h2
      rw [h4, ← h3, hi]
  · have hno' : ∀ i : Fin entries'.length, q ≠ targetOf inputDir outputDir entries'[i] := fun i e => hq ⟨i, e⟩
    have carry : ∀ (xs ys : List Path), (∀ e, e ∈ ys → e ∈ xs) → (∀ i : Fin xs.length, q ≠ targetOf inputDir outputDir xs[i]) →
        ∀ i : Fin ys.length, q ≠ targetOf inputDir outputDir ys[i] := by
      intro xs ys hsub hx i
      obtain ⟨k, hk, hki⟩ := List.getElem_of_mem (hsub ys[i] (List.getElem_mem _))
      have := hx ⟨k, hk⟩
      rwa [show xs[(⟨k, hk⟩ : Fin xs.length)] = ys[i] from hki] at this
    have hno : ∀ i : Fin entries.length, q ≠ targetOf inputDir outputDir entries[i] := carry _ _ (fun e h => (hsame' e).2 h) hno'
    have hno'' : ∀ i : Fin entries''.length, q ≠ targetOf inputDir outputDir entries''[i] :=
      carry _ _ (fun e h => (hsame'' e).1 h) hno
    rw [b3 q hno', a3 q hno'', k1 q hno]

end

/-- Non-vacuity: the two files of `twoFiles` are to be transformed to `/c`.  The first attempt has been killed after the second file, and has left
half of the first; it is repeated in another order.  The hypotheses hold, and the outputs are those of a single run. -/
example :
    let k := runSeq kindOs (twoJobs ["c"]) [1] twoFiles
    let w1 : World Unit := { k.1 with files := fun q => if q = ["c", "x"] then some [1, 2, 3] else k.1.files q, counter := 0 }
    let r := runSeq kindOs (twoJobs ["c"]) [1, 0] w1
    let s := runSeq kindOs (twoJobs ["c"]) [0, 1] twoFiles
    twoJobs ["c"] = commandJobs (.transform (Bundle.new.withBc1Manual .new)) kindOs somePlatform (fun _ : Unit => "") ["a"] ["c"]
      [["a", "x"], ["a", "b", "x"]] ∧ Wide somePlatform ∧
    Batch twoListing twoFiles ["a"] ["c"] [["a", "x"], ["a", "b", "x"]] ∧ Batch twoListing w1 ["a"] ["c"] [["a", "x"], ["a", "b", "x"]] ∧
    r.2.map (fun l => l.all (·.toBool)) = some true ∧ s.2.map (fun l => l.all (·.toBool)) = some true ∧
    r.1.files ["c", "x"] = s.1.files ["c", "x"] ∧ (s.1.files ["c", "x"]).isSome ∧ w1.files ["c", "x"] ≠ s.1.files ["c", "x"] := by
  have hn : ∀ d, (twoListing d).Nodup := by
    intro d
    unfold twoListing
    split
    · decide
    · split <;> decide
  refine ⟨rfl, by unfold Wide; decide, ⟨⟨3, by decide +kernel⟩, hn, fun rel rel' _ _ => separate_of_disjoint (by decide) (by decide) rel rel'⟩,
    ⟨⟨3, by decide +kernel⟩, hn, fun rel rel' _ _ => separate_of_disjoint (by decide) (by decide) rel rel'⟩, by decide +kernel⟩

end Dlt.Props
