import Verif.Props.Cli
/-!
# C39: batch processing into any directory

Nothing is assumed about the output directory: it may lie in the input directory, around it, or be the input directory.
-/

namespace Dlt.Props

open Dlt.FileFormats Dlt.FileIo Dlt.FileIo.Prog Dlt.Cli Dlt.Dds

variable {α β E : Type}

/-! ## One program among others -/

section
variable {ι : Type} [DecidableEq ι]

/-- Where a program that is alone can have got to. -/
inductive Reach (os : Os) (x : Prog Unit α) (w : World Unit) : Prog Unit α → World Unit → Prop where
  | refl : Reach os x w x w
  | call {β : Type} {s : Sys Unit β} {k : β → Prog Unit α} {v : World Unit} (h : Reach os x w (.op s k) v) :
      Reach os x w (resume k (exec os s v).2) (exec os s v).1

/-- What is kept about program `i` when only the others stay out of its way. -/
structure LocalInv (os : Os) (area : ι → Area) (w0 : World Unit) (start : ι → Prog Unit α) (c : Config ι Unit α) (i : ι)
    (ready : ι → Bool) (shadow : World Unit) : Prop where
  alike : Alike os (area i) (ready i) c.world shadow
  foot : ∀ j, Foot (area j) (ready j) (c.progs j)
  alone : run os (c.progs i) shadow = run os (start i) w0
  reach : Reach os (start i) w0 (c.progs i) shadow

theorem LocalInv.step {os : Os} {area : ι → Area} {i : ι} (hself : (area i).out ∉ (area i).ds)
    (hap : ∀ j, i ≠ j → Apart (area i) (area j)) {w0 : World Unit} {start : ι → Prog Unit α} {c d : Config ι Unit α}
    {ready : ι → Bool} {shadow : World Unit} (h : LocalInv os area w0 start c i ready shadow) (hs : Step os c d) :
    ∃ ready' shadow', LocalInv os area w0 start d i ready' shadow' := by
  cases hs with
  | call j s k hp =>
    have hfoot := h.foot j
    rw [hp] at hfoot
    obtain ⟨hin, hk⟩ := hfoot
    by_cases hji : j = i
    · subst hji
      obtain ⟨hans, hal⟩ := exec_alike (os := os) hself s hin h.alike
      obtain ⟨r', hr', hfoot'⟩ : ∃ r', Alike os (area j) r' (exec os s c.world).1 (exec os s shadow).1 ∧
          Foot (area j) r' (resume k (exec os s c.world).2) := by
        rcases hb : (exec os s c.world).2 with _ | b
        · refine ⟨ready j, ?_, trivial⟩
          rw [exec_none s _ hb, exec_none s _ (hans.symm.trans hb)]
          exact h.alike
        · exact ⟨_, hal b hb, hk b⟩
      refine ⟨Function.update ready j r', (exec os s shadow).1, by simpa using hr', fun l => ?_, ?_, ?_⟩
      · by_cases hl : l = j
        · subst hl; simpa using hfoot'
        · simp only [Function.update_of_ne hl, if_neg hl]
          exact h.foot l
      · rw [← h.alone, hp, run_op]
        simp only [if_true]
        rw [hans]
        rcases exec os s shadow with ⟨v, _ | b⟩ <;> rfl
      · simp only [if_true]
        rw [hans]
        exact .call (hp ▸ h.reach)
    · obtain ⟨r', hfoot'⟩ : ∃ r', Foot (area j) r' (resume k (exec os s c.world).2) := by
        rcases (exec os s c.world).2 with _ | b
        · exact ⟨false, trivial⟩
        · exact ⟨_, hk b⟩
      have hij : i ≠ j := fun e => hji e.symm
      refine ⟨Function.update ready j r', shadow, ?_, fun l => ?_, ?_, ?_⟩
      · rw [Function.update_of_ne hij]
        exact exec_apart (hap j hij) s hin h.alike
      · by_cases hl : l = j
        · subst hl; simpa using hfoot'
        · simp only [Function.update_of_ne hl, if_neg hl]
          exact h.foot l
      · simp only [if_neg hij]
        exact h.alone
      · simp only [if_neg hij]
        exact h.reach

theorem LocalInv.steps {os : Os} {area : ι → Area} {i : ι} (hself : (area i).out ∉ (area i).ds)
    (hap : ∀ j, i ≠ j → Apart (area i) (area j)) {w0 : World Unit} {progs : ι → Prog Unit α}
    (hf : ∀ j, Foot (area j) false (progs j)) {c : Config ι Unit α} (hs : Steps os ⟨w0, progs⟩ c) :
    ∃ ready shadow, LocalInv os area w0 progs c i ready shadow := by
  generalize ha : (⟨w0, progs⟩ : Config ι Unit α) = a at hs
  induction hs with
  | refl => exact ⟨fun _ => false, w0, ha ▸ ⟨⟨rfl, rfl, rfl, (fun h => nomatch h), fun _ _ => rfl⟩, hf, rfl, .refl⟩⟩
  | tail _ h ih =>
    obtain ⟨r, s, hi⟩ := ih
    exact hi.step hself hap h

theorem exec_dirs_grow {os : Os} {β : Type} (s : Sys Unit β) (w : World Unit) (q : Path) (h : w.dirs q = true) :
    (exec os s w).1.dirs q = true := by
  cases s with
  | openRead p => exact h
  | fileLen p => exact h
  | size p => unfold exec; dsimp only; split <;> exact h
  | mapRead p n => unfold exec; dsimp only; (repeat' split) <;> exact h
  | mapWrite p n => unfold exec; dsimp only; (repeat' split) <;> exact h
  | create p n => unfold exec; dsimp only; (repeat' split) <;> exact h
  | store p c => unfold exec; dsimp only; (repeat' split) <;> exact h
  | add n => exact h
  | call f => unfold exec; dsimp only; (repeat' split) <;> exact h
  | mkdir p =>
    rw [exec_mkdir]
    split
    · dsimp only
      split
      · rfl
      · exact h
    · exact h

/-- Whatever the others do, files that are nobody's output stay, and directories stay. -/
theorem steps_keep {os : Os} {area : ι → Area} {w0 : World Unit} {progs : ι → Prog Unit α}
    (hf : ∀ j, Foot (area j) false (progs j)) {c : Config ι Unit α} (hs : Steps os ⟨w0, progs⟩ c) :
    (∀ j, ∃ r, Foot (area j) r (c.progs j)) ∧
    (∀ q, (∀ i, q ≠ (area i).out) → c.world.files q = w0.files q) ∧ (∀ q, w0.dirs q = true → c.world.dirs q = true) := by
  generalize ha : (⟨w0, progs⟩ : Config ι Unit α) = a at hs
  induction hs with
  | refl => subst ha; exact ⟨fun j => ⟨_, hf j⟩, fun _ _ => rfl, fun _ h => h⟩
  | tail _ h ih =>
    obtain ⟨h1, h2, h3⟩ := ih
    cases h with
    | call j s k hp =>
      obtain ⟨r, hfj⟩ := h1 j
      rw [hp] at hfj
      obtain ⟨hin, hk⟩ := hfj
      refine ⟨fun l => ?_, fun q hq => ?_, fun q hq => ?_⟩
      · by_cases hl : l = j
        · subst hl
          simp only [if_true]
          rcases (exec os s _).2 with _ | b
          · exact ⟨false, trivial⟩
          · exact ⟨_, hk b⟩
        · simp only [if_neg hl]
          exact h1 l
      · exact (exec_files s hin _ (hq j)).trans (h2 q hq)
      · exact exec_dirs_grow s _ q (h3 q hq)
end

/-! ## The byte counter -/

/-- The program does not touch the counter. -/
def NoAdd : Prog Unit α → Prop
  | .ret _ => True
  | .panic => True
  | .op s k => (∀ w : World Unit, ∀ os, (exec os s w).1.counter = w.counter) ∧ ∀ b, NoAdd (k b)

theorem noAdd_bind {f : α → Prog Unit β} (hf : ∀ v, NoAdd (f v)) : ∀ x : Prog Unit α, NoAdd x → NoAdd (x.bind f)
  | .ret v, _ => hf v
  | .panic, _ => trivial
  | .op _ k, h => ⟨h.1, fun b => noAdd_bind hf (k b) (h.2 b)⟩

theorem noAdd_try {s : Sys Unit (Except IoError β)} {k : β → Prog Unit (Except FileError α)}
    (hs : ∀ w : World Unit, ∀ os, (exec os s w).1.counter = w.counter) (hk : ∀ b, NoAdd (k b)) : NoAdd (try' s k) := by
  refine ⟨hs, fun b => ?_⟩
  cases b with
  | error e => trivial
  | ok b => exact hk b

theorem noAdd_withInput {os : Os} {p : Path} {k : Buf → Prog Unit (Except FileError α)} (hk : ∀ b, NoAdd (k b)) :
    NoAdd (withInput os p k) :=
  noAdd_try (fun _ _ => rfl) fun _ =>
    noAdd_try (fun _ _ => by unfold exec; dsimp only; split <;> rfl) fun _ =>
      noAdd_try (fun _ _ => by unfold exec; dsimp only; (repeat' split) <;> rfl) hk

theorem noAdd_intoFile {p : Path} {n : Nat} {f : Buf → Unit → Option (Res Unit α)} : NoAdd (intoFile p n f) :=
  noAdd_try (fun _ _ => by unfold exec; dsimp only; (repeat' split) <;> rfl) fun _ =>
    noAdd_try (fun _ _ => by unfold exec; dsimp only; (repeat' split) <;> rfl) fun _ =>
      ⟨fun _ _ => by unfold exec; dsimp only; (repeat' split) <;> rfl, fun _ =>
        ⟨fun _ _ => by unfold exec; dsimp only; (repeat' split) <;> rfl, fun _ => trivial⟩⟩

theorem noAdd_tryHandlers {detect : Handler Unit E → Unit → Option (Unit × Bool)} {go : Handler Unit E → Prog Unit α}
    {rejected : α} (hg : ∀ h, NoAdd (go h)) : ∀ hs, NoAdd (tryHandlers detect go rejected hs)
  | [] => trivial
  | h :: hs => ⟨fun _ _ => by unfold exec; dsimp only; (repeat' split) <;> rfl, fun b => by
    cases b
    · exact noAdd_tryHandlers hg hs
    · exact hg h⟩

theorem noAdd_createDirAll {k : Prog Unit (Except FileError α)} (hk : NoAdd k) :
    ∀ (rest : List String) (base : Path), NoAdd (createDirAll base rest k)
  | [], _ => noAdd_try (fun _ _ => by unfold exec; dsimp only; (repeat' split) <;> rfl) fun _ => hk
  | _ :: rest, _ => noAdd_try (fun _ _ => by unfold exec; dsimp only; (repeat' split) <;> rfl) fun _ =>
      noAdd_createDirAll hk rest _

theorem noAdd_processFile {convert : Path → Path → Prog Unit (Except FileError (Handler Unit E))}
    (hc : ∀ i o, NoAdd (convert i o)) (inputDir outputDir path : Path) :
    NoAdd (processFile convert inputDir outputDir path) := by
  unfold processFile
  split
  · trivial
  next rel _ =>
    have hw : NoAdd (.op (.fileLen path) fun len =>
        (convert path (outputDir ++ rel)).bind fun r => .ret (r.map fun _ => len.getD 0)) :=
      ⟨fun _ _ => rfl, fun _ => noAdd_bind (f := fun r => .ret _) (fun _ => trivial) _ (hc _ _)⟩
    dsimp only
    split
    · exact hw
    · exact noAdd_createDirAll hw _ _

/-- A job as it goes: the counter is still untouched, or all that is left is the result. -/
inductive Counting : BitVec 64 → Prog Unit (Except FileError Nat) → Prop where
  | work (x : Prog Unit (Except FileError Nat)) : NoAdd x → Counting 0 (job x)
  | done (r : Except FileError Nat) : Counting (bytes (some r)) (.ret r)
  | panic : Counting 0 .panic

theorem Counting.ended {n : BitVec 64} {x : Prog Unit (Except FileError Nat)} (h : Counting n x)
    {r : Option (Except FileError Nat)} (he : ended x = some r) : n = bytes r := by
  cases h with
  | work x hx =>
    cases x with
    | ret v =>
      cases v with
      | error e => cases he; rfl
      | ok n => exact nomatch he
    | panic => cases he; rfl
    | op s k => exact nomatch he
  | done v => cases he; rfl
  | panic => cases he; rfl

theorem Counting.step {os : Os} {n : BitVec 64} {β : Type} {s : Sys Unit β} {k : β → Prog Unit (Except FileError Nat)}
    (h : Counting n (.op s k)) (w : World Unit) :
    ∃ m, (exec os s w).1.counter = w.counter + m ∧ Counting (n + m) (resume k (exec os s w).2) := by
  generalize hx : (Prog.op s k : Prog Unit (Except FileError Nat)) = p at h
  cases h with
  | done r => exact nomatch hx
  | panic => exact nomatch hx
  | work x hno =>
    cases x with
    | ret v =>
      cases v with
      | error e => exact nomatch hx
      | ok n =>
        cases hx
        exact ⟨BitVec.ofNat 64 n, rfl, by rw [zero_add]; exact Counting.done (.ok n)⟩
    | panic => exact nomatch hx
    | op s' k' =>
      cases hx
      refine ⟨0, by simpa using hno.1 w os, ?_⟩
      rw [add_zero]
      rcases (exec os s w).2 with _ | b
      · exact Counting.panic
      · exact Counting.work (k' b) (hno.2 b)

theorem steps_counter {ι : Type} [DecidableEq ι] [Fintype ι] {os : Os} {w0 : World Unit}
    {progs : ι → Prog Unit (Except FileError Nat)} (hf : ∀ j, Counting 0 (progs j))
    {c : Config ι Unit (Except FileError Nat)} (hs : Steps os ⟨w0, progs⟩ c) :
    ∃ n : ι → BitVec 64, c.world.counter = w0.counter + ∑ i, n i ∧ ∀ i, Counting (n i) (c.progs i) := by
  generalize ha : (⟨w0, progs⟩ : Config ι Unit (Except FileError Nat)) = a at hs
  induction hs with
  | refl => subst ha; exact ⟨fun _ => 0, by simp, hf⟩
  | tail _ h ih =>
    obtain ⟨n, h1, h2⟩ := ih
    cases h with
    | call j s k hp =>
      have hc := h2 j
      rw [hp] at hc
      obtain ⟨m, hm, hc'⟩ := hc.step (os := os) _
      refine ⟨Function.update n j (n j + m), ?_, fun l => ?_⟩
      · dsimp only
        rw [hm, h1, ← Finset.add_sum_erase _ n (Finset.mem_univ j),
          ← Finset.add_sum_erase _ (Function.update n j (n j + m)) (Finset.mem_univ j),
          Finset.sum_congr rfl fun l (hl : l ∈ Finset.univ.erase j) => Function.update_of_ne (Finset.ne_of_mem_erase hl) _ _,
          Function.update_self]
        abel
      · by_cases hl : l = j
        · subst hl; simpa using hc'
        · simp only [Function.update_of_ne hl, if_neg hl]
          exact h2 l

section
variable {os : Os} {hs : List (Handler Unit E)} {ls : Listing} {w0 : World Unit} {inputDir outputDir : Path}
  {entries : List Path} {jobs : Fin entries.length → Prog Unit (Except FileError Nat)}

theorem jobs_counting (hj : IsBatch os hs inputDir outputDir entries jobs) (i : Fin entries.length) :
    Counting 0 (jobs i) := by
  cases hj with
  | transform bundle =>
    exact .work _ (noAdd_processFile (fun _ _ =>
      noAdd_withInput fun _ => noAdd_tryHandlers (fun _ => noAdd_intoFile) hs) _ _ _)
  | untransform =>
    exact .work _ (noAdd_processFile (fun _ _ =>
      noAdd_withInput fun _ => noAdd_tryHandlers (fun _ => noAdd_intoFile) hs) _ _ _)

/-- **C39** (any output directory): at every moment of every execution, wherever the outputs go, a file that has been dealt with
has had the result and has the output file that it has on its own, if its input is not the output of another file;
nothing is asked of the other files. -/
theorem C39_one_file_partial (hl : Listed ls w0 inputDir entries) (hj : IsBatch os hs inputDir outputDir entries jobs)
    {c : Config (Fin entries.length) Unit (Except FileError Nat)} (hs : Steps os ⟨w0, jobs⟩ c) (i : Fin entries.length)
    (hfree : ∀ j, j ≠ i → targetOf inputDir outputDir entries[j] ≠ entries[i]) (he : (ended (c.progs i)).isSome) :
    ended (c.progs i) = some (run os (jobs i) w0).2 ∧
    c.world.files (targetOf inputDir outputDir entries[i]) =
      (run os (jobs i) w0).1.files (targetOf inputDir outputDir entries[i]) := by
  obtain ⟨r, s, h⟩ := LocalInv.steps (hl.self outputDir i) (fun j hij => hl.apart hij (hfree j (Ne.symm hij)))
    (hl.foot hj) hs
  have key : run os (jobs i) w0 = (s, (ended (c.progs i)).getD none) := by
    rw [← h.alone]
    rcases hc : c.progs i with a | _ | ⟨sys, k⟩
    · rfl
    · rfl
    · rw [hc] at he; exact nomatch he
  rw [key]
  refine ⟨?_, h.alike.out⟩
  obtain ⟨v, hv⟩ := Option.isSome_iff_exists.1 he
  rw [hv]; rfl

/-- **C39** (any output directory): at every moment of every execution, wherever the outputs go, files that are not the output of an
entry are as they were, directories stay, and the counter holds the sizes of the files that have succeeded as soon as all are
done. -/
theorem C39_any_directory (hl : Listed ls w0 inputDir entries) (hj : IsBatch os hs inputDir outputDir entries jobs)
    {c : Config (Fin entries.length) Unit (Except FileError Nat)} (hs : Steps os ⟨w0, jobs⟩ c) :
    (∀ q, (∀ i : Fin entries.length, q ≠ targetOf inputDir outputDir entries[i]) → c.world.files q = w0.files q) ∧
    (∀ q, w0.dirs q = true → c.world.dirs q = true) ∧
    ∀ r : Fin entries.length → Option (Except FileError Nat), (∀ i, ended (c.progs i) = some (r i)) →
      c.world.counter = w0.counter + ∑ i, bytes (r i) := by
  obtain ⟨_, h1, h2⟩ := steps_keep (hl.foot hj) hs
  refine ⟨h1, h2, fun r he => ?_⟩
  obtain ⟨n, h3, h4⟩ := steps_counter (jobs_counting hj) hs
  rw [h3]
  congr 1
  exact Finset.sum_congr rfl fun i _ => (h4 i).ended (he i)

end

/-- Non-vacuity: with `/a/b` inside `/a` the hypotheses hold for `/a/x`, and its output (over `/a/b/x`) is the same in both
orders although that of `/a/b/x` is not. -/
example : Listed twoListing twoFiles ["a"] [["a", "x"], ["a", "b", "x"]] ∧
    (∀ j : Fin 2, j ≠ 0 → targetOf ["a"] ["a", "b"] ([["a", "x"], ["a", "b", "x"]] : List Path)[j] ≠ ["a", "x"]) ∧
    (let r := runSeq kindOs (twoJobs ["a", "b"]) [0, 1] twoFiles
     let s := runSeq kindOs (twoJobs ["a", "b"]) [1, 0] twoFiles
     r.1.files ["a", "b", "x"] = s.1.files ["a", "b", "x"] ∧ (r.1.files ["a", "b", "x"]).isSome ∧
     r.1.files ["a", "b", "b", "x"] ≠ s.1.files ["a", "b", "b", "x"]) := by
  refine ⟨⟨⟨3, by decide +kernel⟩, ?_⟩, by decide, by decide +kernel⟩
  intro d
  unfold twoListing
  split
  · decide
  · split <;> decide

end Dlt.Props
