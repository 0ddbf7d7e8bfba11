import Verif.Model.Commands
import Verif.Props.Presets
/-!
# C76: the commands from their arguments to the exit status
-/

namespace Dlt.Props

open Dlt.FileFormats Dlt.FileIo Dlt.FileIo.Prog Dlt.Cli Dlt.Dds Dlt.DebugStats

/-! ## Arguments -/

/-- Making directories, whatever becomes of it: directories are only added, on the way to the path. -/
theorem createDirAll_grows (os : Os) : ∀ (rest : List String) (base : Path) (w : World Unit),
    (run os (createDirAll base rest (.ret (.ok ()))) w).1.files = w.files ∧
    (run os (createDirAll base rest (.ret (.ok ()))) w).1.counter = w.counter ∧
    (∀ q, w.dirs q = true → (run os (createDirAll base rest (.ret (.ok ()))) w).1.dirs q = true) ∧
    (∀ q, (run os (createDirAll base rest (.ret (.ok ()))) w).1.dirs q = true → w.dirs q = true ∨ q <+: base ++ rest)
  | [], base, w => by
    unfold createDirAll try'
    rw [run_op, exec_mkdir]
    by_cases hd : dirOk os w base = true
    · rw [if_pos hd]
      refine ⟨rfl, rfl, fun q h => ?_, fun q h => ?_⟩
      · change (if q = base then true else w.dirs q) = true
        split <;> simp [h]
      · change (if q = base then true else w.dirs q) = true at h
        split at h
        · next hq => subst hq; exact .inr (by simp)
        · exact .inl h
    · rw [if_neg hd]
      exact ⟨rfl, rfl, fun _ h => h, fun _ h => .inl h⟩
  | name :: rest, base, w => by
    unfold createDirAll try'
    rw [run_op, exec_mkdir]
    by_cases hd : dirOk os w base = true
    · rw [if_pos hd]
      obtain ⟨h1, h2, h3, h4⟩ := createDirAll_grows os rest (base ++ [name]) { w with dirs := fun q => if q = base then true else w.dirs q }
      refine ⟨h1, h2, fun q h => h3 q ?_, fun q h => ?_⟩
      · dsimp only; split <;> simp [h]
      · rcases h4 q h with h | h
        · dsimp only at h
          split at h
          · next hq => subst hq; exact .inr (by simp)
          · exact .inl h
        · exact .inr (by simpa using h)
    · rw [if_neg hd]
      exact ⟨rfl, rfl, fun _ h => h, fun _ h => .inl h⟩

/-- Making directories succeeds if and only if each can be made or is there. -/
theorem createDirAll_iff (os : Os) : ∀ (rest : List String) (base : Path) (w : World Unit),
    (run os (createDirAll base rest (.ret (.ok ()))) w).2 = some (.ok ()) ↔ ∀ q, base <+: q → q <+: base ++ rest → dirOk os w q = true
  | [], base, w => by
    unfold createDirAll try'
    rw [run_op, exec_mkdir]
    by_cases hd : dirOk os w base = true
    · rw [if_pos hd]
      refine ⟨fun _ q h1 h2 => ?_, fun _ => rfl⟩
      rw [List.append_nil] at h2
      rwa [h2.eq_of_length_le h1.length_le]
    · rw [if_neg hd]
      refine ⟨fun h => ?_, fun h => absurd (h base (by simp) (by simp)) hd⟩
      simp [run] at h
  | name :: rest, base, w => by
    unfold createDirAll try'
    rw [run_op, exec_mkdir]
    by_cases hd : dirOk os w base = true
    · rw [if_pos hd]
      refine (createDirAll_iff os rest (base ++ [name]) { w with dirs := fun q => if q = base then true else w.dirs q }).trans ?_
      constructor
      · intro h q h1 h2
        by_cases hq : q = base
        · rw [hq]; exact hd
        · have := h q ?_ (by simpa using h2)
          · rwa [dirOk_mkdir hd] at this
          · obtain ⟨t, rfl⟩ := h1
            rw [List.prefix_append_right_inj] at h2
            match t with
            | [] => simp at hq
            | x :: t =>
              rw [List.cons_prefix_cons] at h2
              rw [h2.1]
              exact ⟨t, by simp⟩
      · intro h q h1 h2
        rw [dirOk_mkdir hd]
        exact h q ((List.prefix_append _ _).trans h1) (by simpa using h2)
    · rw [if_neg hd]
      refine ⟨fun h => ?_, fun h => absurd (h base (by simp) (by simp)) hd⟩
      simp [run] at h

/-- **C76** (arguments): reading a path changes no file, and adds directories at most on the way to it; a path that is there and can be seen
changes nothing.  An accepted path is there afterwards, and if nothing was there it is a directory, as is all above it.  A path
is accepted exactly if it can be resolved and either is there and can be seen, or all directories on the way to it and the
path itself are directories or can be made. -/
theorem C76_argument (os : Os) (sight : Sight) (path : Path) (w : World Unit) (w' : World Unit) (r : Except String Path)
    (h : canonicalizeCliPath os sight path w = (w', r)) :
    (w'.files = w.files ∧ w'.counter = w.counter) ∧ (∀ q, w.dirs q = true → w'.dirs q = true) ∧
    (∀ q, w'.dirs q = true → w.dirs q = true ∨ q <+: path) ∧
    (isThere w path = true → sight.sees path = true → w' = w) ∧
    (∀ x, r = .ok x → x = path ∧ isThere w' path = true ∧ (isThere w path = false → ∀ q, q <+: path → w'.dirs q = true)) ∧
    ((∃ x, r = .ok x) ↔ sight.resolves path = true ∧ ((isThere w path = true ∧ sight.sees path = true) ∨
      ∀ q, q <+: path → w.dirs q = true ∨ (w.files q = none ∧ os.canMkdir q = true))) := by
  have hok : ∀ q, dirOk os w q = true ↔ w.dirs q = true ∨ (w.files q = none ∧ os.canMkdir q = true) := by
    intro q
    unfold dirOk
    simp
  unfold canonicalizeCliPath at h
  dsimp only at h
  by_cases hs : (isThere w path && sight.sees path) = true
  · rw [if_pos hs] at h
    rw [Bool.and_eq_true] at hs
    cases h
    refine ⟨⟨rfl, rfl⟩, fun _ h => h, fun _ h => .inl h, fun _ _ => rfl, fun x hx => ?_, ?_⟩
    · split at hx
      · cases hx; exact ⟨rfl, hs.1, fun h => by rw [h] at hs; exact nomatch hs.1⟩
      · exact nomatch hx
    · rw [hs.1, Bool.true_and]
      by_cases hr : sight.resolves path = true
      · rw [if_pos hr]; exact ⟨fun _ => ⟨hr, .inl ⟨rfl, hs.2⟩⟩, fun _ => ⟨_, rfl⟩⟩
      · rw [if_neg hr]; exact ⟨fun ⟨_, h⟩ => (nomatch h), fun h => absurd h.1 hr⟩
  · rw [if_neg hs] at h
    have hs' : ¬ (isThere w path = true ∧ sight.sees path = true) := by rwa [Bool.and_eq_true] at hs
    obtain ⟨h1, h2, h3, h4⟩ := createDirAll_grows os path [] w
    have h5 := createDirAll_iff os path [] w
    have h6 := (createDirAll_cases os (.ret (.ok ()) : Prog Unit (Except FileError Unit)) path [] w).1
    rw [List.nil_append] at h4
    rcases hrun : run os (createDirAll [] path (.ret (.ok ()))) w with ⟨w1, a⟩
    rw [hrun] at h h1 h2 h3 h4 h5 h6
    dsimp only at h1 h2 h3 h4 h5
    by_cases ha : a = some (.ok ())
    · subst ha
      have hall := h5.1 rfl
      obtain ⟨w3, h7, h8, h9⟩ := h6 hall
      rw [run] at h7
      cases h7
      have hp : w1.dirs path = true := (h9 path).2 (.inr (by simp))
      have hthere : isThere w1 path = true := by unfold isThere; rw [hp, Bool.or_true]
      dsimp only at h
      cases h
      refine ⟨⟨h1, h2⟩, h3, h4, fun h h' => absurd ⟨h, h'⟩ hs', fun x hx => ?_, ?_⟩
      · split at hx
        · cases hx
          exact ⟨rfl, hthere, fun _ q hq => (h9 q).2 (.inr ⟨by simp, by simpa using hq⟩)⟩
        · exact nomatch hx
      · rw [hthere, Bool.true_and]
        by_cases hr : sight.resolves path = true
        · rw [if_pos hr]
          exact ⟨fun _ => ⟨hr, .inr fun q hq => (hok q).1 (hall q (by simp) (by simpa using hq))⟩, fun _ => ⟨_, rfl⟩⟩
        · rw [if_neg hr]; exact ⟨fun ⟨_, h⟩ => (nomatch h), fun h => absurd h.1 hr⟩
    · have hr : w' = w1 ∧ r = .error "Failed to create directory" := by
        rcases a with _ | e | ⟨⟩
        · cases h; exact ⟨rfl, rfl⟩
        · cases h; exact ⟨rfl, rfl⟩
        · exact absurd rfl ha
      obtain ⟨rfl, rfl⟩ := hr
      refine ⟨⟨h1, h2⟩, h3, h4, fun h h' => absurd ⟨h, h'⟩ hs', fun x hx => (nomatch hx), fun ⟨_, h⟩ => (nomatch h), ?_⟩
      rintro ⟨_, h | h⟩
      · exact absurd h hs'
      · exact absurd (h5.2 fun q _ hq => (hok q).2 (h q (by simpa using hq))) ha

theorem isThere_iff (w : World Unit) (q : Path) : isThere w q = true ↔ (w.files q).isSome = true ∨ w.dirs q = true := by
  unfold isThere
  simp

/-- Both arguments. -/
theorem parsePaths_spec {os : Os} {sight : Sight} {inputFirst : Bool} {input output : Path} {w w' : World Unit}
    {r : Except String (Path × Path)} (h : parsePaths os sight inputFirst input output w = (w', r)) :
    w'.files = w.files ∧ (∀ q, w.dirs q = true → w'.dirs q = true) ∧
    (∀ q, w'.dirs q = true → w.dirs q = true ∨ q <+: input ∨ q <+: output) ∧
    (∀ i o, r = .ok (i, o) → i = input ∧ o = output ∧ isThere w' input = true ∧ isThere w' output = true ∧
      (isThere w input = false → ¬ input <+: output → ∀ q, q <+: input → w'.dirs q = true) ∧
      (isThere w output = false → ¬ output <+: input → ∀ q, q <+: output → w'.dirs q = true)) := by
  have key : ∀ (x y : Path) (w1 : World Unit) (a : Path), canonicalizeCliPath os sight x w = (w1, .ok a) →
      ∀ (w2 : World Unit) (b : Except String Path), canonicalizeCliPath os sight y w1 = (w2, b) →
      w2.files = w.files ∧ (∀ q, w.dirs q = true → w2.dirs q = true) ∧
      (∀ q, w2.dirs q = true → w.dirs q = true ∨ q <+: x ∨ q <+: y) ∧
      (∀ v, b = .ok v → a = x ∧ v = y ∧ isThere w2 x = true ∧ isThere w2 y = true ∧
        (isThere w x = false → ∀ q, q <+: x → w2.dirs q = true) ∧
        (isThere w y = false → ¬ y <+: x → ∀ q, q <+: y → w2.dirs q = true)) := by
    intro x y w1 a h1 w2 b h2
    obtain ⟨⟨a1, _⟩, a2, a3, _, a5, _⟩ := C76_argument os sight x w w1 _ h1
    obtain ⟨⟨b1, _⟩, b2, b3, _, b5, _⟩ := C76_argument os sight y w1 w2 _ h2
    refine ⟨b1.trans a1, fun q h => b2 q (a2 q h), fun q h => ?_, fun v hv => ?_⟩
    · rcases b3 q h with h | h
      · rcases a3 q h with h | h
        · exact .inl h
        · exact .inr (.inl h)
      · exact .inr (.inr h)
    · obtain ⟨c1, c2, c3⟩ := a5 a rfl
      obtain ⟨d1, d2, d3⟩ := b5 v hv
      refine ⟨c1, d1, ?_, d2, fun h q hq => b2 q (c3 h q hq), fun h hn => d3 ?_⟩
      · rw [isThere_iff] at c2 ⊢
        rw [b1]
        exact c2.imp_right (b2 x)
      · rw [Bool.eq_false_iff] at h ⊢
        intro h'
        apply h
        rw [isThere_iff] at h' ⊢
        rw [a1] at h'
        refine h'.imp_right fun h' => ?_
        rcases a3 y h' with h' | h'
        · exact h'
        · exact absurd h' hn
  unfold parsePaths at h
  cases inputFirst with
  | true =>
    simp only [if_true] at h
    rcases h1 : canonicalizeCliPath os sight input w with ⟨w1, e | a⟩
    · rw [h1] at h
      cases h
      obtain ⟨⟨a1, _⟩, a2, a3, _⟩ := C76_argument os sight input w _ _ h1
      exact ⟨a1, a2, fun q h => (a3 q h).imp_right .inl, fun i o h => (nomatch h)⟩
    · rw [h1] at h
      dsimp only at h
      rcases h2 : canonicalizeCliPath os sight output w1 with ⟨w2, e | b⟩
      · rw [h2] at h
        cases h
        obtain ⟨k1, k2, k3, _⟩ := key _ _ _ _ h1 _ _ h2
        exact ⟨k1, k2, k3, fun i o h => (nomatch h)⟩
      · rw [h2] at h
        cases h
        obtain ⟨k1, k2, k3, k4⟩ := key _ _ _ _ h1 _ _ h2
        obtain ⟨m1, m2, m3, m4, m5, m6⟩ := k4 b rfl
        refine ⟨k1, k2, k3, fun i o h => ?_⟩
        cases h
        exact ⟨m1, m2, m3, m4, fun h _ => m5 h, m6⟩
  | false =>
    simp only [Bool.false_eq_true, if_false] at h
    rcases h1 : canonicalizeCliPath os sight output w with ⟨w1, e | a⟩
    · rw [h1] at h
      cases h
      obtain ⟨⟨a1, _⟩, a2, a3, _⟩ := C76_argument os sight output w _ _ h1
      exact ⟨a1, a2, fun q h => (a3 q h).imp_right .inr, fun i o h => (nomatch h)⟩
    · rw [h1] at h
      dsimp only at h
      rcases h2 : canonicalizeCliPath os sight input w1 with ⟨w2, e | b⟩
      · rw [h2] at h
        cases h
        obtain ⟨k1, k2, k3, _⟩ := key _ _ _ _ h1 _ _ h2
        exact ⟨k1, k2, fun q h => (k3 q h).imp_right Or.symm, fun i o h => (nomatch h)⟩
      · rw [h2] at h
        cases h
        obtain ⟨k1, k2, k3, k4⟩ := key _ _ _ _ h1 _ _ h2
        obtain ⟨m1, m2, m3, m4, m5, m6⟩ := k4 b rfl
        refine ⟨k1, k2, fun q h => (k3 q h).imp_right Or.symm, fun i o h => ?_⟩
        cases h
        exact ⟨m2, m1, m4, m3, m6, fun h _ => m5 h⟩

/-! ## The work -/

/-- The programs that a command starts. -/
theorem handle_spec {lib : Lib} {os : Os} {p : Dds.Platform} {dbg : Nat → String} {ls : Listing} {isDir : Path → Bool} {fuel : Nat}
    {input output : Path} {cmd : Command} {r : Except Unit Work}
    (h : handle lib os p dbg ls isDir fuel input output cmd = some r) :
    ∃ work, r = .ok work ∧ findAllFiles ls isDir fuel input = some work.entries ∧
      (∀ preset, cmd = .transform preset → ∃ b, presetBundle lib preset = some b ∧
        (fun i : Fin work.entries.length => work.job work.entries[i]) = transformJobs os (allHandlers p dbg) b input output work.entries) ∧
      (cmd = .untransform → (fun i : Fin work.entries.length => work.job work.entries[i]) =
        untransformJobs os (allHandlers (E := Nat) p dbg) input output work.entries) := by
  cases cmd with
  | transform preset =>
    change handleTransform lib os p dbg ls isDir fuel input output preset = some r at h
    rcases hf : findAllFiles ls isDir fuel input with _ | entries
    · unfold handleTransform at h
      rw [hf] at h
      exact nomatch h
    · obtain ⟨b, work, h1, h2, rfl, h4⟩ := C72_command lib os p dbg ls isDir fuel input output preset entries hf
      obtain rfl := Option.some.inj (h2.symm.trans h)
      refine ⟨work, rfl, rfl, fun preset' hp => ?_, fun h => (nomatch h)⟩
      cases hp
      exact ⟨b, h1, funext fun i => h4 _ (List.getElem_mem _)⟩
  | untransform =>
    change handleUntransform os p dbg ls isDir fuel input output = some r at h
    unfold handleUntransform at h
    rcases hf : findAllFiles ls isDir fuel input with _ | _ | ⟨e, es⟩
    · rw [hf] at h; exact nomatch h
    · rw [hf] at h
      cases h
      exact ⟨_, rfl, rfl, fun _ h => (nomatch h), fun _ => funext fun i => i.elim0⟩
    · rw [hf] at h
      cases h
      exact ⟨_, rfl, rfl, fun _ h => (nomatch h), fun _ => rfl⟩

theorem handle_isBatch {lib : Lib} {os : Os} {p : Dds.Platform} {dbg : Nat → String} {ls : Listing} {isDir : Path → Bool} {fuel : Nat}
    {input output : Path} {cmd : Command} {work : Work} (h : handle lib os p dbg ls isDir fuel input output cmd = some (.ok work)) :
    findAllFiles ls isDir fuel input = some work.entries ∧
    IsBatch os (allHandlers p dbg) input output work.entries (fun i : Fin work.entries.length => work.job work.entries[i]) := by
  obtain ⟨work', h1, h2, h3, h4⟩ := handle_spec h
  cases h1
  refine ⟨h2, ?_⟩
  cases cmd with
  | transform preset =>
    obtain ⟨b, _, h⟩ := h3 preset rfl
    rw [h]
    exact .transform b
  | untransform =>
    rw [h4 rfl]
    exact .untransform

/-- What the system lists: no name twice, and in a directory what is there. -/
structure Shows (ls : Listing) (w : World Unit) : Prop where
  names : ∀ d, (ls d).Nodup
  all : ∀ d, w.dirs d = true → ∀ name, name ∈ ls d ↔ isThere w (d ++ [name]) = true

/-- The search ends if no directory is deeper than `n`. -/
theorem findAllFiles_ends (ls : Listing) (isDir : Path → Bool) (n : Nat) (hn : ∀ q, isDir q = true → q.length ≤ n) :
    ∀ (fuel : Nat) (dir : Path), n ≤ dir.length + fuel → ∃ entries, findAllFiles ls isDir (fuel + 1) dir = some entries := by
  intro fuel
  induction fuel with
  | zero =>
    intro dir hd
    rw [findAllFiles]
    generalize ls dir = names
    induction names with
    | nil => exact ⟨_, rfl⟩
    | cons name names ih =>
      obtain ⟨l, hl⟩ := ih
      rw [collectEntries, if_neg]
      · rw [hl]; exact ⟨_, rfl⟩
      · intro h
        have := hn _ h
        simp at this
        omega
  | succ fuel ihf =>
    intro dir hd
    rw [findAllFiles]
    generalize ls dir = names
    induction names with
    | nil => exact ⟨_, rfl⟩
    | cons name names ih =>
      obtain ⟨l, hl⟩ := ih
      rw [collectEntries]
      split
      · obtain ⟨x, hx⟩ := ihf (dir ++ [name]) (by simp; omega)
        rw [hx, hl]; exact ⟨_, rfl⟩
      · rw [hl]; exact ⟨_, rfl⟩

section
variable {lib : Lib} {os : Os} {sight : Sight} {p : Dds.Platform} {dbg : Nat → String} {ls : Listing} {inputFirst : Bool}
  {input output : Path} {cmd : Command} {w w2 : World Unit} {e : Exit}

/-- All programs can be run to their ends. -/
theorem steps_to_end {ι σ α : Type} [DecidableEq ι] [Fintype ι] (os : Os) (c : Config ι σ α) :
    ∃ d, Steps os c d ∧ ∀ i, (ended (d.progs i)).isSome := by
  have hacc := (C39_terminates os c).1
  induction hacc with
  | intro c _ ih =>
    by_cases h : ∃ i, ended (c.progs i) = none
    · obtain ⟨d, hd⟩ := (C39_terminates os c).2 h
      obtain ⟨f, h1, h2⟩ := ih d hd
      exact ⟨f, (Steps.tail (.refl c) hd).trans h1, h2⟩
    · refine ⟨c, .refl c, fun i => ?_⟩
      rcases hi : ended (c.progs i) with _ | r
      · exact absurd ⟨i, hi⟩ h
      · rfl

/-- **C76** (an end): whatever the system answers and however deep the directories are, as long as there is a deepest one, the process can
end, and it does so in one of three ways: it rejects an argument, or it has done its work with success, or it panics.  `main`
never returns an error. -/
theorem C76_ends (n : Nat) (hn : ∀ q, w.dirs q = true → q.length ≤ n) :
    (∃ w2 e, Process lib os sight p dbg ls inputFirst input output cmd w w2 e) ∧
    ∀ w2 e, Process lib os sight p dbg ls inputFirst input output cmd w w2 e → e ≠ .failure := by
  constructor
  · rcases hp : parsePaths os sight inputFirst input output w with ⟨w', e | ⟨i, o⟩⟩
    · exact ⟨_, _, .argument w' e hp⟩
    · obtain ⟨_, _, h3, h4⟩ := parsePaths_spec hp
      obtain ⟨entries, he⟩ := findAllFiles_ends ls w'.dirs (n + input.length + output.length) (fun q hq => by
        rcases h3 q hq with h | h | h
        · have := hn q h; omega
        · have := h.length_le; omega
        · have := h.length_le; omega) _ i (Nat.le_add_left _ i.length)
      have hh : ∃ r, handle lib os p dbg ls w'.dirs (n + input.length + output.length + 1) i o cmd = some r := by
        cases cmd with
        | transform preset =>
          obtain ⟨_, work, _, h, _⟩ := C72_command lib os p dbg ls w'.dirs _ i o preset entries he
          exact ⟨_, h⟩
        | untransform =>
          change ∃ r, handleUntransform os p dbg ls w'.dirs _ i o = some r
          unfold handleUntransform
          rw [he]
          cases entries <;> exact ⟨_, rfl⟩
      obtain ⟨r, hr⟩ := hh
      obtain ⟨work, rfl, _⟩ := handle_spec hr
      obtain ⟨c, hs, hend⟩ := steps_to_end os ⟨{ w' with counter := 0 }, fun i : Fin work.entries.length => work.job work.entries[i]⟩
      by_cases hpanic : ∃ i, ended (c.progs i) = some none
      · exact ⟨_, _, .panic w' i o _ work c hp hr hs hpanic⟩
      · refine ⟨_, _, .success w' i o _ work c hp hr hs fun i => ?_⟩
        obtain ⟨a, ha⟩ := Option.isSome_iff_exists.1 (hend i)
        cases a with
        | none => exact absurd ⟨i, ha⟩ hpanic
        | some a => exact ⟨a, ha⟩
  · rintro w2 _ h rfl
    cases h with
    | failure _ i o fuel h hw =>
      obtain ⟨_, h, _⟩ := handle_spec hw
      exact nomatch h

/-- **C76** (exit status): the tool, built for 64-bit addresses and without overflow checks, with directories that do not lie one in the other:
the process ends with success, whatever becomes of the files, unless it rejects an argument, and then it has changed no file. -/
theorem C76_exit (hwf : os.Wf) (hw : Wide p) (hoc : p.overflowChecks = false) (hls : ∀ d, (ls d).Nodup)
    (h1 : ¬ input <+: output) (h2 : ¬ output <+: input)
    (h : Process lib os sight p dbg ls inputFirst input output cmd w w2 e) :
    (e = .argument ↔ ∃ w' t, parsePaths os sight inputFirst input output w = (w', .error t)) ∧ (e = .argument ∨ e = .success) ∧
    (e = .argument → w2.files = w.files) := by
  cases h with
  | argument w' t h => exact ⟨⟨fun _ => ⟨_, _, h⟩, fun _ => rfl⟩, .inl rfl, fun _ => (parsePaths_spec h).1⟩
  | failure w' i o fuel h hw =>
    obtain ⟨_, h, _⟩ := handle_spec hw
    exact nomatch h
  | success w' i o fuel work c h hw hs he =>
    exact ⟨⟨fun h => (nomatch h), fun ⟨w1, t, h'⟩ => by rw [h] at h'; exact nomatch h'⟩, .inr rfl, fun h => (nomatch h)⟩
  | panic w' i o fuel work c h hh hs he =>
    exfalso
    obtain ⟨_, _, _, h4⟩ := parsePaths_spec h
    obtain ⟨rfl, rfl, _⟩ := h4 i o rfl
    obtain ⟨hf, hb⟩ := handle_isBatch hh
    have hbatch : Batch ls { w' with counter := 0 } i o work.entries :=
      ⟨⟨fuel, hf⟩, hls, fun rel rel' _ _ => separate_of_disjoint h1 h2 rel rel'⟩
    obtain ⟨k, hk⟩ := he
    exact C39_no_panic hwf hw hoc dbg hbatch hb k (hbatch.result hb hs hk).symm

end

/-! ## Directories made by the work -/

theorem exec_dirs_within {os : Os} {a : Area} {r : Bool} {β : Type} (s : Sys Unit β) (hw : Within a r s) (w : World Unit) (q : Path) :
    (w.dirs q = true → (exec os s w).1.dirs q = true) ∧ ((exec os s w).1.dirs q = true → w.dirs q = true ∨ q ∈ a.ds) := by
  cases s with
  | openRead p => exact ⟨id, .inl⟩
  | size p => simp only [exec]; split <;> exact ⟨id, .inl⟩
  | mapRead p n =>
    simp only [exec]
    split
    · exact ⟨id, .inl⟩
    · split
      · split <;> exact ⟨id, .inl⟩
      · exact ⟨id, .inl⟩
  | create p n => simp only [exec]; split <;> exact ⟨id, .inl⟩
  | mapWrite p n =>
    simp only [exec]
    split
    · exact ⟨id, .inl⟩
    · split
      · split <;> exact ⟨id, .inl⟩
      · exact ⟨id, .inl⟩
  | store p b =>
    simp only [exec]
    split
    · exact ⟨id, .inl⟩
    · split <;> exact ⟨id, .inl⟩
  | mkdir p =>
    rw [exec_mkdir]
    split
    · constructor
      · intro h; dsimp only; split <;> simp [h]
      · intro h
        dsimp only at h
        split at h
        · next hq => subst hq; exact .inr hw
        · exact .inl h
    · exact ⟨id, .inl⟩
  | fileLen p => exact ⟨id, .inl⟩
  | add n => exact ⟨id, .inl⟩
  | call f => simp only [exec]; split <;> exact ⟨id, .inl⟩

/-- A program makes directories only in its area, and removes none. -/
theorem foot_dirs {α : Type} {os : Os} {a : Area} : ∀ (x : Prog Unit α) (r : Bool) (w : World Unit), Foot a r x → ∀ q,
    (w.dirs q = true → (run os x w).1.dirs q = true) ∧ ((run os x w).1.dirs q = true → w.dirs q = true ∨ q ∈ a.ds)
  | .ret v, r, w, _, q => ⟨id, .inl⟩
  | .panic, r, w, _, q => ⟨id, .inl⟩
  | .op s k, r, w, h, q => by
    obtain ⟨h1, h2⟩ := exec_dirs_within (os := os) s h.1 w q
    rw [run_op]
    rcases he : exec os s w with ⟨w1, _ | b⟩
    · rw [he] at h1 h2; exact ⟨h1, h2⟩
    · rw [he] at h1 h2
      obtain ⟨h3, h4⟩ := foot_dirs (os := os) (k b) _ w1 (h.2 b) q
      exact ⟨fun h => h3 (h1 h), fun h => (h4 h).elim h2 .inr⟩

theorem IsTree.setFile {w : World Unit} (ht : IsTree w) {q : Path} {c : Option Buf} (hd : w.dirs q = false)
    (hp : w.dirs q.dropLast = true) : IsTree (w.setFile q c) := by
  refine ⟨fun x name h => ?_, fun x h => ?_⟩
  · rcases h with h | h
    · change (if x ++ [name] = q then c else w.files (x ++ [name])).isSome = true at h
      split at h
      · next hq => rw [← hq, List.dropLast_concat] at hp; exact hp
      · exact ht.parent x name (.inl h)
    · exact ht.parent x name (.inr h)
  · change (if x = q then c else w.files x) = none
    split
    · next hq => subst hq; rw [show w.dirs x = true from h] at hd; exact nomatch hd
    · exact ht.notBoth x h

theorem IsTree.of_eq {w v : World Unit} (ht : IsTree w) (h1 : v.files = w.files) (h2 : v.dirs = w.dirs) : IsTree v :=
  ⟨fun p name h => by rw [h1, h2] at h; rw [h2]; exact ht.parent p name h, fun p h => by rw [h2] at h; rw [h1]; exact ht.notBoth p h⟩

/-- A call other than `mkdir` keeps the tree. -/
theorem exec_tree {os : Os} {a : Area} (ha : a.ds = []) {r : Bool} {β : Type} (s : Sys Unit β) (hw : Within a r s) (w : World Unit)
    (ht : IsTree w) : IsTree (exec os s w).1 := by
  cases s with
  | openRead p => exact ht
  | size p => simp only [exec]; split <;> exact ht
  | mapRead p n =>
    simp only [exec]
    split
    · exact ht
    · split
      · split <;> exact ht
      · exact ht
  | create p n =>
    simp only [exec]
    split
    · next h =>
      rw [Bool.and_eq_true, Bool.not_eq_true'] at h
      exact ht.setFile h.2 h.1
    · exact ht
  | mapWrite p n =>
    simp only [exec]
    split
    · exact ht
    · split
      · split <;> exact ht
      · exact ht
  | store p b =>
    simp only [exec]
    split
    · exact ht
    · next old hold =>
      split
      · have hnd : w.dirs p = false := by
          rw [Bool.eq_false_iff]
          intro h
          rw [ht.notBoth p h] at hold
          exact nomatch hold
        refine ⟨fun x name h => ?_, fun x h => ?_⟩
        · rcases h with h | h
          · change (if x ++ [name] = p then _ else w.files (x ++ [name])).isSome = true at h
            split at h
            · next hq => exact ht.parent x name (.inl (by rw [hq, hold]; rfl))
            · exact ht.parent x name (.inl h)
          · exact ht.parent x name (.inr h)
        · change (if x = p then _ else w.files x) = none
          split
          · next hq => subst hq; rw [show w.dirs x = true from h] at hnd; exact nomatch hnd
          · exact ht.notBoth x h
      · exact ht
  | mkdir p => change p ∈ a.ds at hw; rw [ha] at hw; simp at hw
  | fileLen p => exact ht
  | add n => exact ht.of_eq rfl rfl
  | call f =>
    simp only [exec]
    split
    · exact ht
    · exact ht.of_eq rfl rfl

theorem foot_tree {α : Type} {os : Os} {a : Area} (ha : a.ds = []) : ∀ (x : Prog Unit α) (r : Bool) (w : World Unit), Foot a r x →
    IsTree w → IsTree (run os x w).1
  | .ret v, r, w, _, ht => ht
  | .panic, r, w, _, ht => ht
  | .op s k, r, w, h, ht => by
    have h1 := exec_tree (os := os) ha s h.1 w ht
    rw [run_op]
    rcases he : exec os s w with ⟨w1, _ | b⟩
    · rw [he] at h1; exact h1
    · rw [he] at h1
      exact foot_tree ha (k b) _ w1 (h.2 b) h1

theorem createDirAll_tree {α : Type} (os : Os) (k : Prog Unit (Except FileError α)) (hk : ∀ w, IsTree w → IsTree (run os k w).1) :
    ∀ (rest : List String) (base : Path) (w : World Unit), IsTree w → (base = [] ∨ w.dirs base.dropLast = true) →
      IsTree (run os (createDirAll base rest k) w).1 := by
  have step : ∀ (base : Path) (w : World Unit), IsTree w → (base = [] ∨ w.dirs base.dropLast = true) → dirOk os w base = true →
      IsTree { w with dirs := fun q => if q = base then true else w.dirs q } := by
    intro base w ht hb hd
    refine ⟨fun x name h => ?_, fun x h => ?_⟩
    · dsimp only at h ⊢
      have hx : w.dirs x = true := by
        rcases h with h | h
        · exact ht.parent x name (.inl h)
        · split at h
          · next hq =>
            subst hq
            rcases hb with hb | hb
            · simp at hb
            · rwa [List.dropLast_concat] at hb
          · exact ht.parent x name (.inr h)
      split <;> simp [hx]
    · dsimp only at h ⊢
      split at h
      · next hq =>
        subst hq
        unfold dirOk at hd
        rw [Bool.or_eq_true] at hd
        rcases hd with hd | hd
        · exact ht.notBoth x hd
        · rw [Bool.and_eq_true] at hd
          exact Option.isNone_iff_eq_none.1 hd.1
      · exact ht.notBoth x h
  intro rest
  induction rest with
  | nil =>
    intro base w ht hb
    unfold createDirAll try'
    rw [run_op, exec_mkdir]
    by_cases hd : dirOk os w base = true
    · rw [if_pos hd]; exact hk _ (step base w ht hb hd)
    · rw [if_neg hd]; exact ht
  | cons name rest ih =>
    intro base w ht hb
    unfold createDirAll try'
    rw [run_op, exec_mkdir]
    by_cases hd : dirOk os w base = true
    · rw [if_pos hd]
      exact ih (base ++ [name]) _ (step base w ht hb hd) (.inr (by rw [List.dropLast_concat]; simp))
    · rw [if_neg hd]; exact ht

theorem canonicalize_tree {os : Os} {sight : Sight} {path : Path} {w : World Unit} (ht : IsTree w) :
    IsTree (canonicalizeCliPath os sight path w).1 := by
  unfold canonicalizeCliPath
  dsimp only
  split
  · exact ht
  · have := createDirAll_tree os (.ret (.ok ()) : Prog Unit (Except FileError Unit)) (fun _ h => h) path [] w ht (.inl rfl)
    split
    · next h => rw [h] at this; exact this
    · next h => rw [h] at this; exact this

theorem parsePaths_tree {os : Os} {sight : Sight} {inputFirst : Bool} {input output : Path} {w : World Unit} (ht : IsTree w) :
    IsTree (parsePaths os sight inputFirst input output w).1 := by
  unfold parsePaths
  have h1 := canonicalize_tree (os := os) (sight := sight) (path := if inputFirst then input else output) ht
  split
  · next h => rw [h] at h1; exact h1
  · next h =>
    rw [h] at h1
    have h2 := canonicalize_tree (os := os) (sight := sight) (path := if inputFirst then output else input) h1
    split
    · next h => rw [h] at h2; exact h2
    · next h => rw [h] at h2; exact h2

/-- The work on one file keeps the tree. -/
theorem job_tree {E : Type} {os : Os} {hs : List (Handler Unit E)} {inputDir outputDir : Path} {entries : List Path}
    {jobs : Fin entries.length → Prog Unit (Except FileError Nat)} (hj : IsBatch os hs inputDir outputDir entries jobs)
    (i : Fin entries.length) {w : World Unit} (ht : IsTree w) : IsTree (run os (jobs i) w).1 := by
  have key : ∀ convert : Path → Path → Prog Unit (Except FileError (Handler Unit E)),
      (∀ a b, Foot ⟨a, b, []⟩ true (convert a b)) → IsTree (run os (job (processFile convert inputDir outputDir entries[i])) w).1 := by
    intro convert hc
    rw [run_job]
    refine IsTree.of_eq (w := (run os (processFile convert inputDir outputDir entries[i]) w).1) ?_ rfl rfl
    unfold processFile
    split
    · exact ht
    · next rel _ =>
      have hwork : ∀ w, IsTree w → IsTree (run os (.op (.fileLen entries[i]) fun len =>
          (convert entries[i] (outputDir ++ rel)).bind fun r => .ret (r.map fun _ => len.getD 0)) w).1 := fun w ht => by
        refine foot_tree (a := ⟨entries[i], outputDir ++ rel, []⟩) rfl _ true w ?_ ht
        refine ⟨rfl, fun _ => foot_bind (fun _ _ => ?_) _ _ (hc _ _)⟩
        trivial
      dsimp only
      split
      · exact hwork w ht
      · exact createDirAll_tree os _ hwork _ _ _ ht (.inl rfl)
  cases hj with
  | transform bundle => exact key _ fun a b => (foot_convert (a := ⟨a, b, []⟩) hs bundle).1
  | untransform => exact key _ fun a b => (foot_convert (a := ⟨a, b, []⟩) hs Bundle.new).2

/-- A job with directories that can be made has made them. -/
theorem job_dirs {E : Type} {os : Os} {convert : Path → Path → Prog Unit (Except FileError (Handler Unit E))} {a : Area}
    {inputDir outputDir rel : Path} (hrel : rel ≠ []) (ha : a = areaOf inputDir outputDir rel)
    (hc : Foot a true (convert (inputDir ++ rel) (outputDir ++ rel))) {w : World Unit}
    (hd : ∀ q, q <+: (outputDir ++ rel).dropLast → w.dirs q = true ∨ (w.files q = none ∧ os.canMkdir q = true)) (q : Path)
    (hq : q <+: (outputDir ++ rel).dropLast) :
    (run os (job (processFile convert inputDir outputDir (inputDir ++ rel))) w).1.dirs q = true := by
  subst ha
  rw [run_job]
  dsimp only
  unfold processFile
  rw [stripPrefix_append]
  dsimp only
  rw [if_neg (by simp [hrel])]
  obtain ⟨w', h1, _, h3⟩ := (createDirAll_cases os (.op (.fileLen (inputDir ++ rel)) fun len =>
      (convert (inputDir ++ rel) (outputDir ++ rel)).bind fun r => .ret (r.map fun _ => len.getD 0)) (outputDir ++ rel).dropLast [] w).1
      fun q _ hq => by
    unfold dirOk
    rcases hd q hq with h | ⟨h1, h2⟩
    · simp [h]
    · simp [h1, h2]
  rw [h1]
  refine (foot_dirs (a := areaOf inputDir outputDir rel) _ true w' ?_ q).1 ((h3 q).2 (.inr ⟨by simp, by simpa using hq⟩))
  refine ⟨rfl, fun _ => foot_bind (fun _ _ => ?_) _ _ hc⟩
  trivial

/-! ## Processes -/

theorem foot_files {α : Type} {os : Os} {a : Area} : ∀ (x : Prog Unit α) (r : Bool) (w : World Unit), Foot a r x → ∀ {q : Path},
    q ≠ a.out → (run os x w).1.files q = w.files q
  | .ret v, r, w, _, q, _ => rfl
  | .panic, r, w, _, q, _ => rfl
  | .op s k, r, w, h, q, hq => by
    have h1 := exec_files (os := os) s h.1 w hq
    rw [run_op]
    rcases he : exec os s w with ⟨w1, _ | b⟩
    · rw [he] at h1; exact h1
    · rw [he] at h1
      exact (foot_files (k b) _ w1 (h.2 b) hq).trans h1

section
variable {lib : Lib} {os : Os} {sight : Sight} {p : Dds.Platform} {dbg : Nat → String} {ls : Listing} {inputFirst : Bool}
  {input output : Path} {cmd : Command} {w w2 : World Unit} {e : Exit}

/-- A process that has ended with success: what it has found and how it has run. -/
theorem process_success (hls : ∀ d, (ls d).Nodup) (h1 : ¬ input <+: output) (h2 : ¬ output <+: input)
    (h : Process lib os sight p dbg ls inputFirst input output cmd w w2 .success) :
    ∃ (w' : World Unit) (entries : List Path) (jobs : Fin entries.length → Prog Unit (Except FileError Nat))
      (c : Config (Fin entries.length) Unit (Except FileError Nat)),
      parsePaths os sight inputFirst input output w = (w', .ok (input, output)) ∧
      Batch ls { w' with counter := 0 } input output entries ∧ IsBatch os (allHandlers p dbg) input output entries jobs ∧
      (∀ preset, cmd = .transform preset → ∃ b, presetBundle lib preset = some b ∧
        jobs = transformJobs os (allHandlers p dbg) b input output entries) ∧
      (cmd = .untransform → jobs = untransformJobs os (allHandlers (E := Nat) p dbg) input output entries) ∧
      Steps os ⟨{ w' with counter := 0 }, jobs⟩ c ∧ (∀ i, (ended (c.progs i)).isSome) ∧ c.world = w2 := by
  cases h with
  | success w' i o fuel work c h hw hs he =>
    obtain ⟨_, _, _, h4⟩ := parsePaths_spec h
    obtain ⟨rfl, rfl, _⟩ := h4 i o rfl
    obtain ⟨hf, hb⟩ := handle_isBatch hw
    obtain ⟨work', hx, _, k1, k2⟩ := handle_spec hw
    cases hx
    refine ⟨w', work.entries, _, c, h, ⟨⟨fuel, hf⟩, hls, fun rel rel' _ _ => separate_of_disjoint h1 h2 rel rel'⟩, hb, k1, k2, hs, fun i => ?_, rfl⟩
    obtain ⟨r, hr⟩ := he i
    rw [hr]
    rfl

/-- **C76** (frame): a process with directories that do not lie one in the other changes only files below the output directory; no
directory disappears, and new ones are on the way to the two paths or below the output directory; the file system remains a tree. -/
theorem C76_frame (hls : ∀ d, (ls d).Nodup) (h1 : ¬ input <+: output) (h2 : ¬ output <+: input)
    (h : Process lib os sight p dbg ls inputFirst input output cmd w w2 .success) :
    (∀ q, (¬ ∃ rel, rel ≠ [] ∧ q = output ++ rel) → w2.files q = w.files q) ∧ (∀ q, w.dirs q = true → w2.dirs q = true) ∧
    (∀ q, w2.dirs q = true → w.dirs q = true ∨ q <+: input ∨ q <+: output ∨ output <+: q) ∧
    (IsTree w → IsTree w2) := by
  obtain ⟨w', entries, jobs, c, hp, hb, hj, _, _, hs, he, rfl⟩ := process_success hls h1 h2 h
  obtain ⟨p1, p2, p3, _⟩ := parsePaths_spec hp
  obtain ⟨_, c2, c3, c4, _⟩ := C39_schedule_independent_partial hb hj hs he
  have hdirs : ∀ i q, (run os (jobs i) { w' with counter := 0 }).1.dirs q = true →
      w'.dirs q = true ∨ ∃ rel, rel ≠ [] ∧ entries[i] = input ++ rel ∧ q ∈ (output ++ rel).dropLast.inits := by
    intro i q hq
    obtain ⟨rel, r1, r2, _⟩ := hb.rel i
    rcases (foot_dirs _ _ _ (hb.foot hj i) q).2 hq with h | h
    · exact .inl h
    · rw [areas_eq r2] at h
      exact .inr ⟨rel, r1, r2, h⟩
  refine ⟨fun q hq => ?_, fun q hq => (c4 q).2 (.inl (p2 q hq)), fun q hq => ?_, fun ht => ?_⟩
  · rw [c3 q fun i h => ?_]
    · exact congrFun p1 q
    · obtain ⟨rel, r1, _, r3, _⟩ := hb.rel i
      exact hq ⟨rel, r1, h.trans r3⟩
  · rcases (c4 q).1 hq with h | ⟨i, h⟩
    · rcases p3 q h with h | h | h
      · exact .inl h
      · exact .inr (.inl h)
      · exact .inr (.inr (.inl h))
    · rcases hdirs i q h with h | ⟨rel, _, _, h⟩
      · rcases p3 q h with h | h | h
        · exact .inl h
        · exact .inr (.inl h)
        · exact .inr (.inr (.inl h))
      · have hq : q <+: output ++ rel := ((List.mem_inits _ _).1 h).trans (List.dropLast_prefix _)
        rcases List.prefix_or_prefix_of_prefix hq (List.prefix_append output rel) with h | h
        · exact .inr (.inr (.inl h))
        · exact .inr (.inr (.inr h))
  · have ht' : IsTree { w' with counter := 0 } := by
      have := parsePaths_tree (os := os) (sight := sight) (inputFirst := inputFirst) (input := input) (output := output) ht
      rw [hp] at this
      exact this.of_eq rfl rfl
    have htgt : ∀ q, (c.world.files q).isSome = true → (w'.files q).isSome = true ∨
        ∃ i, q = targetOf input output entries[i] ∧ ((run os (jobs i) { w' with counter := 0 }).1.files q).isSome = true := by
      intro q hq
      by_cases hex : ∃ i : Fin entries.length, q = targetOf input output entries[i]
      · obtain ⟨i, rfl⟩ := hex
        rw [c2 i] at hq
        exact .inr ⟨i, rfl, hq⟩
      · rw [c3 q fun i h => hex ⟨i, h⟩] at hq
        exact .inl hq
    refine ⟨fun q name hq => (c4 q).2 ?_, fun q hq => ?_⟩
    · rcases hq with hq | hq
      · rcases htgt _ hq with h | ⟨i, _, h⟩
        · exact .inl (ht'.parent q name (.inl h))
        · exact .inr ⟨i, (job_tree hj i ht').parent q name (.inl h)⟩
      · rcases (c4 _).1 hq with h | ⟨i, h⟩
        · exact .inl (ht'.parent q name (.inr h))
        · exact .inr ⟨i, (job_tree hj i ht').parent q name (.inr h)⟩
    · rw [← Option.not_isSome_iff_eq_none]
      intro hf
      rcases htgt q hf with h | ⟨i, hi, h⟩
      · -- a file from before: not a directory then, nor made one
        rcases (c4 q).1 hq with hd | ⟨j, hd⟩
        · rw [ht'.notBoth q hd] at h; exact nomatch h
        · have hn := (job_tree hj j ht').notBoth q hd
          rcases (foot_dirs _ _ _ (hb.foot hj j) q).2 hd with h' | h'
          · rw [ht'.notBoth q h'] at h; exact nomatch h
          · rw [foot_files _ _ _ (hb.foot hj j) fun hq => hb.self j (hq ▸ h')] at hn
            rw [show w'.files q = none from hn] at h
            exact nomatch h
      · obtain ⟨rel, r1, r2, r3, r4, r5⟩ := hb.rel i
        rw [hi, r3] at hq
        rcases (c4 _).1 hq with hd | ⟨j, hd⟩
        · have := (job_tree hj i ht').notBoth _ ((foot_dirs (os := os) _ _ _ (hb.foot hj i) _).1 hd)
          rw [hi, r3, this] at h
          exact nomatch h
        · rcases hdirs j _ hd with h' | ⟨rel', r1', r2', h'⟩
          · have := (job_tree hj i ht').notBoth _ ((foot_dirs (os := os) _ _ { w' with counter := 0 } (hb.foot hj i) _).1 h')
            rw [hi, r3, this] at h
            exact nomatch h
          · obtain ⟨rel2, _, s2, _, _, s5⟩ := hb.rel j
            obtain rfl : rel' = rel2 := List.append_cancel_left (r2'.symm.trans s2)
            exact not_in_dirs r1 r4 s5 h'

/-- If the search finds nothing nothing is done. -/
theorem process_empty (hls : ∀ d, (ls d).Nodup)
    (hn : ∀ w', parsePaths os sight inputFirst input output w = (w', .ok (input, output)) → ∀ q, ¬ IsEntry ls w'.dirs input q)
    (h : Process lib os sight p dbg ls inputFirst input output cmd w w2 e) :
    (e = .argument ∨ e = .success) ∧ w2.files = w.files ∧ (e = .success → isThere w2 input = true ∧ isThere w2 output = true) := by
  have nil : ∀ (w' : World Unit) (i o : Path) (fuel : Nat) (work : Work),
      parsePaths os sight inputFirst input output w = (w', .ok (i, o)) →
      handle lib os p dbg ls w'.dirs fuel i o cmd = some (.ok work) → work.entries = [] := by
    intro w' i o fuel work h hw
    obtain ⟨_, _, _, h4⟩ := parsePaths_spec h
    obtain ⟨rfl, rfl, _⟩ := h4 i o rfl
    obtain ⟨hf, _⟩ := handle_isBatch hw
    rw [List.eq_nil_iff_forall_not_mem]
    intro q hq
    exact hn w' h q (((C39_find_all_files ls hls w'.dirs fuel i work.entries hf).2 q).1 hq)
  cases h with
  | argument w' t h => exact ⟨.inl rfl, (parsePaths_spec h).1, fun h => (nomatch h)⟩
  | failure w' i o fuel h hw =>
    obtain ⟨_, h, _⟩ := handle_spec hw
    exact nomatch h
  | success w' i o fuel work c h hw hs he =>
    have hnil := nil w' i o fuel work h hw
    obtain ⟨k1, _, _, h4⟩ := parsePaths_spec h
    obtain ⟨rfl, rfl, k5, k6, _⟩ := h4 i o rfl
    obtain ⟨hf, hb⟩ := handle_isBatch hw
    have hbatch : Batch ls { w' with counter := 0 } i o work.entries :=
      ⟨⟨fuel, hf⟩, hls, fun rel rel' hm _ => by rw [hnil] at hm; simp at hm⟩
    obtain ⟨_, _, c3, c4, _⟩ := C39_schedule_independent_partial hbatch hb hs fun k => by
      obtain ⟨r, hr⟩ := he k
      rw [hr]; rfl
    have hfiles : c.world.files = w'.files := funext fun q => c3 q fun k => by
      have := k.isLt
      simp [hnil] at this
    refine ⟨.inr rfl, hfiles.trans k1, fun _ => ?_⟩
    simp only [isThere_iff] at k5 k6 ⊢
    rw [hfiles]
    exact ⟨k5.imp_right fun h => (c4 i).2 (.inl h), k6.imp_right fun h => (c4 o).2 (.inl h)⟩
  | panic w' i o fuel work c h hw hs he =>
    have hnil := nil w' i o fuel work h hw
    obtain ⟨k, _⟩ := he
    have := k.isLt
    simp [hnil] at this

/-- **C76** (a wrong input): if there is nothing at the input path, a mistyped name say, the process makes an empty directory there, changes no file,
and ends with success unless it rejects an argument; which of the two arguments comes first does not matter. -/
theorem C76_missing_input (ht : IsTree w) (hin : isThere w input = false)
    (hls : Shows ls (parsePaths os sight inputFirst input output w).1)
    (h : Process lib os sight p dbg ls inputFirst input output cmd w w2 e) :
    (e = .argument ∨ e = .success) ∧ w2.files = w.files ∧ (e = .success → w2.dirs input = true) := by
  have hno : w.files input = none ∧ w.dirs input = false := by
    unfold isThere at hin
    simpa using hin
  obtain ⟨h1, h2, h3⟩ := process_empty hls.names (fun w' hp q hq => by
    rw [hp] at hls
    obtain ⟨k1, _, _, k4⟩ := parsePaths_spec hp
    obtain ⟨_, _, k5, _⟩ := k4 _ _ rfl
    obtain ⟨rel, r1, rfl, r3, r4, r5⟩ := hq
    obtain ⟨r, name, rfl⟩ : ∃ r name, rel = r ++ [name] := ⟨rel.dropLast, rel.getLast r1, (List.dropLast_concat_getLast r1).symm⟩
    have hdir : w'.dirs (input ++ r) = true := by
      by_cases hr : r = []
      · subst hr
        rw [List.append_nil]
        rw [isThere_iff, k1, hno.1] at k5
        exact k5.resolve_left (by simp)
      · exact r5 r hr (List.prefix_append _ _) (by simp)
    have hthere := (hls.all _ hdir name).1 (r4 r name (List.prefix_refl _))
    rw [List.append_assoc, isThere_iff, r3, k1] at hthere
    have := ht.above (r ++ [name]) input (hthere.resolve_right (by simp)) (by simp)
    rw [hno.2] at this
    exact nomatch this) h
  refine ⟨h1, h2, fun he => ?_⟩
  have := (h3 he).1
  rw [isThere_iff, h2, hno.1] at this
  exact this.resolve_left (by simp)

/-- **C76** (an input that cannot be listed): if the input is a file or a directory that cannot be read, the process changes no file, and ends
with success unless it rejects an argument. -/
theorem C76_unlisted_input (hls : ∀ d, (ls d).Nodup) (hin : ls input = [])
    (h : Process lib os sight p dbg ls inputFirst input output cmd w w2 e) :
    (e = .argument ∨ e = .success) ∧ w2.files = w.files := by
  obtain ⟨h1, h2, _⟩ := process_empty hls (fun w' _ q hq => by
    obtain ⟨rel, r1, _, _, r4, _⟩ := hq
    match rel, r1 with
    | name :: rel, _ =>
      have := r4 [] name (by simp)
      rw [List.append_nil, hin] at this
      simp at this) h
  exact ⟨h1, h2⟩

/-- The system refuses nothing, for files of `n` bytes and directories. -/
structure Willing (os : Os) (n : Nat) : Prop extends Obliging os n where
  canMkdir : ∀ q, os.canMkdir q = true

theorem Willing.mayRead {n : Nat} (h : Willing os n) (q : Path) : MayRead os q n := ⟨h.canOpen q, h.canSize q, h.canMap q, h.fits⟩

theorem below_new (ht : IsTree w) {q : Path} (hq : isThere w q = false) (rel : Path) :
    w.files (q ++ rel) = none ∧ w.dirs (q ++ rel) = false := by
  have hno : w.files q = none ∧ w.dirs q = false := by
    unfold isThere at hq
    simpa using hq
  constructor
  · by_cases hr : rel = []
    · subst hr; rw [List.append_nil]; exact hno.1
    · rw [← Option.not_isSome_iff_eq_none]
      intro h
      rw [ht.above rel q h hr] at hno
      exact nomatch hno.2
  · rw [Bool.eq_false_iff]
    intro h
    rw [ht.dirs_up q rel h] at hno
    exact nomatch hno.2

/-- A file of the input directory is found, and can be written to a new output directory. -/
theorem process_file (ht : IsTree w) (hin : w.dirs input = true) (hout : isThere w output = false) (h1 : ¬ input <+: output)
    (h2 : ¬ output <+: input) {w' : World Unit} (hp : parsePaths os sight inputFirst input output w = (w', .ok (input, output)))
    (hls : Shows ls w') {entries : List Path} (hb : Batch ls { w' with counter := 0 } input output entries) {rel : Path} {data : Buf}
    (hd : w.files (input ++ rel) = some data) (hos : Willing os data.length) :
    rel ≠ [] ∧ (∃ i : Fin entries.length, entries[i] = input ++ rel) ∧ w'.files = w.files ∧
    MayWrite os { w' with counter := 0 } (output ++ rel) data.length := by
  obtain ⟨p1, p2, p3, p4⟩ := parsePaths_spec hp
  obtain ⟨_, _, _, _, _, p5⟩ := p4 _ _ rfl
  have hmade := p5 hout h2
  have hrel : rel ≠ [] := by
    rintro rfl
    rw [List.append_nil, ht.notBoth input hin] at hd
    exact nomatch hd
  have hnd : w'.dirs (input ++ rel) = false := by
    rw [Bool.eq_false_iff]
    intro h
    rcases p3 _ h with h | h | h
    · rw [ht.notBoth _ h] at hd; exact nomatch hd
    · have hle := h.length_le
      have hpos := List.length_pos_iff.2 hrel
      rw [List.length_append] at hle
      omega
    · exact h1 ((List.prefix_append _ _).trans h)
  have hway : ∀ r, r <+: rel → r ≠ rel → w'.dirs (input ++ r) = true := by
    intro r hr hne
    obtain ⟨t, rfl⟩ := hr
    exact p2 _ (ht.above t (input ++ r) (by rw [List.append_assoc, hd]; rfl) (by rintro rfl; simp at hne))
  refine ⟨hrel, ?_, p1, ?_, ?_, ?_, hos.canMapWrite _⟩
  · obtain ⟨fuel, hf⟩ := hb.found
    have hmem := ((C39_find_all_files ls hb.names w'.dirs fuel input entries hf).2 (input ++ rel)).2
      ⟨rel, hrel, rfl, hnd, fun r name hr => ?_, fun r _ hr hne => hway r hr hne⟩
    · obtain ⟨k, hk, hk'⟩ := List.getElem_of_mem hmem
      exact ⟨⟨k, hk⟩, hk'⟩
    · have hdir : w'.dirs (input ++ r) = true := hway r ((List.prefix_append _ _).trans hr) (by
        rintro rfl
        have := hr.length_le
        simp at this)
      rw [hls.all _ hdir, isThere_iff, p1, List.append_assoc]
      by_cases he : r ++ [name] = rel
      · exact .inl (by rw [he, hd]; rfl)
      · exact .inr (hway _ hr he)
  · intro q hq
    have hq' : q <+: output ++ rel := hq.trans (List.dropLast_prefix _)
    rcases List.prefix_or_prefix_of_prefix hq' (List.prefix_append output rel) with h | ⟨t, rfl⟩
    · exact .inl (hmade q h)
    · exact .inr ⟨by rw [show ({ w' with counter := 0 } : World Unit).files = w.files from p1]; exact (below_new ht hout t).1, hos.canMkdir _⟩
  · rw [Bool.eq_false_iff]
    intro h
    rcases p3 _ h with h | h | h
    · rw [(below_new ht hout rel).2] at h; exact nomatch h
    · exact h2 ((List.prefix_append _ _).trans h)
    · have hle := h.length_le
      have hpos := List.length_pos_iff.2 hrel
      rw [List.length_append] at hle
      omega
  · obtain ⟨fresh, hf, _⟩ := hos.create (output ++ rel) (w'.files (output ++ rel))
    rw [hf]

/-- **C76** (hidden failure): `transform` on a directory with a complete BC2 texture ends with success, although that file is refused, whatever the
preset, and has left something in the output directory that is neither the file nor its transformed version. -/
theorem C76_bc2_hidden (hwf : os.Wf) (hw : Wide p) (hoc : p.overflowChecks = false) (ht : IsTree w) (hin : w.dirs input = true)
    (hout : isThere w output = false) (h1 : ¬ input <+: output) (h2 : ¬ output <+: input) (preset : Preset)
    (hls : Shows ls (parsePaths os sight inputFirst input output w).1)
    (h : Process lib os sight p dbg ls inputFirst input output (.transform preset) w w2 .success)
    {rel : Path} {data : Buf} (hd : w.files (input ++ rel) = some data) (hos : Willing os data.length)
    (htex : HoldsTexture .bc2 data) (hlen : data.length < 2 ^ 32) {ext : Option String} (hx : ext = none ∨ ext = some "dds")
    (hext : IsExtension os (input ++ rel) ext) :
    ∃ fresh : Buf, fresh.length = data.length ∧
      w2.files (output ++ rel) = some (data.take (headerSize data) ++ fresh.drop (headerSize data)) := by
  obtain ⟨w', entries, jobs, c, hp, hb, _, hj, _, hs, he, rfl⟩ := process_success hls.names h1 h2 h
  rw [hp] at hls
  obtain ⟨b, hpb, rfl⟩ := hj preset rfl
  obtain ⟨_, ⟨i, hi⟩, hfl, hmw⟩ := process_file ht hin hout h1 h2 hp hls hb hd hos
  exact (C72_bc2_refused hwf hoc hw hb hpb hs he (by rw [← hd]; exact congrFun hfl _) htex hlen hi (hos.mayRead _) hmw hx hext).2

theorem extension_same {os : Os} {a b rel : Path} (hrel : rel ≠ []) {ext : Option String} (h : IsExtension os (a ++ rel) ext) :
    IsExtension os (b ++ rel) ext := by
  obtain ⟨r, name, rfl⟩ : ∃ r name, rel = r ++ [name] := ⟨rel.dropLast, rel.getLast hrel, (List.dropLast_concat_getLast hrel).symm⟩
  have key : ∀ {d : Path} {x : String}, a ++ (r ++ [name]) = d ++ [x] → name = x := by
    intro d x h
    have := congrArg List.getLast? h
    simpa using this
  rcases h with ⟨d, stem, e, h1, h2⟩ | ⟨h1, h2 | ⟨d, x, h2, h3⟩⟩
  · exact .inl ⟨b ++ r, stem, e, by rw [← key h1]; simp, h2⟩
  · simp at h2
  · exact .inr ⟨h1, .inr ⟨b ++ r, x, by rw [← key h2]; simp, h3⟩⟩

theorem withSettings_length {e : Endian} {s : ColourSettings} {data : Buf} (ht : HoldsTexture .bc1 data) :
    (withSettings e data s).length = data.length := by
  have hc := ht.complete
  have hs : (slice data (headerSize data) (reckoned data)).length = reckoned data := slice_length_of_le (by omega)
  have h4 : 4 ≤ headerSize data := by rcases headerSize_cases data with h | h <;> omega
  change (assemble _ _ _ _ _).length = _
  rw [assemble_length (to32_length _ _) h4 (by omega), encode_length1 _ _ (by rw [hs]; exact reckoned_mod ht.format), hs]
  simp only [List.length_drop]
  omega

/-- **C76** (there and back): `transform --input a --output b` has ended with success and after it `untransform --input b --output c`, with any
preset, the options in any order, any number of threads under any schedule, on machines of the same byte order; `b` and `c` did not exist
before, none of the three directories lies in another (only `c` may lie in `a`), the system lists what is there and refuses nothing.  Then every file of `a` that
holds a complete BC1 texture below 4 GiB, named `.dds` or without extension, is transformed in `b` by the settings that the
preset picks, and is in `c` again byte for byte; and nothing outside of `b` and `c` has changed. -/
theorem C76_roundtrip {p' : Dds.Platform} {sight' : Sight} {ls' : Listing} {inputFirst' : Bool} {a b c : Path} {w0 w1 : World Unit}
    {preset : Preset} (hwf : os.Wf) (hw : Wide p) (hoc : p.overflowChecks = false) (hw' : Wide p') (hoc' : p'.overflowChecks = false)
    (hm : p.m.endian = p'.m.endian) (ht : IsTree w0) (ha : w0.dirs a = true) (hb : isThere w0 b = false) (hc : isThere w0 c = false)
    (hab : ¬ a <+: b) (hba : ¬ b <+: a) (hbc : ¬ b <+: c) (hcb : ¬ c <+: b) (hca : ¬ c <+: a)
    (hls : Shows ls (parsePaths os sight inputFirst a b w0).1)
    (h : Process lib os sight p dbg ls inputFirst a b (.transform preset) w0 w1 .success)
    (hls' : Shows ls' (parsePaths os sight' inputFirst' b c w1).1)
    (h' : Process lib os sight' p' dbg ls' inputFirst' b c .untransform w1 w2 .success) :
    (∀ (rel : Path) (data : Buf) (ext : Option String), w0.files (a ++ rel) = some data → HoldsTexture .bc1 data →
      data.length < 2 ^ 32 → Willing os data.length → (ext = none ∨ ext = some "dds") → IsExtension os (a ++ rel) ext →
      (preset = .optimal ∨ preset = .max → ZstdWorks lib p.env (reckoned data / 2)) →
      (∃ s, Picks lib preset p.m.endian (slice data (headerSize data) (reckoned data)) s ∧
        w1.files (b ++ rel) = some (withSettings p.m.endian data s)) ∧
      w2.files (c ++ rel) = some data) ∧
    (∀ q, ¬ b <+: q → ¬ c <+: q → w2.files q = w0.files q) := by
  obtain ⟨f1, f2, f3, f4⟩ := C76_frame hls.names hab hba h
  obtain ⟨g1, _⟩ := C76_frame hls'.names hbc hcb h'
  constructor
  · intro rel data ext hd htex hlen hos hx hext hz
    obtain ⟨v0, entries, jobs, d, hp, hbt, _, hj, _, hs, he, rfl⟩ := process_success hls.names hab hba h
    obtain ⟨v1, entries', jobs', d', hp', hbt', _, _, hj', hs', he', rfl⟩ := process_success hls'.names hbc hcb h'
    rw [hp] at hls
    rw [hp'] at hls'
    obtain ⟨bundle, hpb, rfl⟩ := hj preset rfl
    obtain rfl := hj' rfl
    obtain ⟨hrel, ⟨i, hi⟩, hfl, hmw⟩ := process_file ht ha hb hab hba hp hls hbt hd hos
    have hd0 : ({ v0 with counter := 0 } : World Unit).files (a ++ rel) = some data := by rw [← hd]; exact congrFun hfl _
    obtain ⟨k1, s, k2, k3⟩ := C72_bc1 hwf hoc hw hbt hpb hs he hd0 htex hlen hi (hos.mayRead _) hmw hx hext hz
    refine ⟨⟨s, k2, k3⟩, ?_⟩
    have hlen' := withSettings_length (e := p.m.endian) (s := s) htex
    have hdir : d.world.dirs b = true := by
      obtain ⟨_, _, _, q4⟩ := parsePaths_spec hp
      obtain ⟨_, _, _, _, _, q5⟩ := q4 _ _ rfl
      exact ((C39_schedule_independent_partial hbt (.transform bundle) hs he).2.2.2.1 b).2 (.inl (q5 hb hba b (List.prefix_refl _)))
    have hnew : isThere d.world c = false := by
      rw [Bool.eq_false_iff]
      intro hthere
      rw [isThere_iff, f1 c fun ⟨r, _, hr⟩ => hbc ⟨r, hr.symm⟩] at hthere
      have hno := below_new ht hc []
      rw [List.append_nil] at hno
      rw [hno.1] at hthere
      rcases f3 c (hthere.resolve_left (by simp)) with h | h | h | h
      · rw [hno.2] at h; exact nomatch h
      · exact hca h
      · exact hcb h
      · exact hbc h
    obtain ⟨_, ⟨j, hj⟩, hfl', hmw'⟩ := process_file (f4 ht) hdir hnew hbc hcb hp' hls' hbt' k3 (by rw [hlen']; exact hos)
    rw [hlen'] at hmw'
    have hwu := hw
    have hwu' := hw'
    unfold Wide at hwu hwu'
    exact (C60_batch_roundtrip hwf hwf p p' hm (by rw [hoc']; exact fun h => (nomatch h)) (by omega) dbg bundle ls ls' _ _ a b c entries entries'
      hbt d hs he hbt' d' hs' he' rel data hd0 hos.fits (by omega) i hi _ k1 (congrFun hfl' _) j hj (hos.mayRead _) hmw' ext hx
      (extension_same hrel hext)).2.2
  · intro q hb hc
    rw [g1 q fun ⟨r, _, hr⟩ => hc ⟨r, hr.symm⟩, f1 q fun ⟨r, _, hr⟩ => hb ⟨r, hr.symm⟩]

end

/-! ## The hypotheses can be met -/

/-- There are finitely many files and directories. -/
def Finitely (w : World Unit) : Prop := ∃ l : List Path, ∀ q, isThere w q = true → q ∈ l

/-- The names in a directory, of a list of paths. -/
def namesIn (l : List Path) (d : Path) : List String := (l.filterMap fun q => if q.dropLast = d then q.getLast? else none).dedup

theorem mem_namesIn (l : List Path) (d : Path) (name : String) : name ∈ namesIn l d ↔ d ++ [name] ∈ l := by
  unfold namesIn
  rw [List.mem_dedup, List.mem_filterMap]
  constructor
  · rintro ⟨q, hq, h⟩
    split at h
    · next hd =>
      have : q = d ++ [name] := by
        rw [← hd]
        exact (List.dropLast_append_getLast? name h).symm
      rwa [← this]
    · exact nomatch h
  · intro h
    exact ⟨_, h, by rw [if_pos (List.dropLast_concat ..), List.getLast?_concat]⟩

/-- Of finitely many files and directories there is a true listing. -/
theorem Finitely.shows {w : World Unit} (h : Finitely w) : ∃ ls, Shows ls w := by
  obtain ⟨l, hl⟩ := h
  refine ⟨namesIn (l.filter (isThere w)), fun d => List.nodup_dedup _, fun d _ name => ?_⟩
  rw [mem_namesIn, List.mem_filter]
  exact ⟨And.right, fun h => ⟨hl _ h, h⟩⟩

theorem Finitely.bounded {w : World Unit} (h : Finitely w) : ∃ n, ∀ q, w.dirs q = true → q.length ≤ n := by
  obtain ⟨l, hl⟩ := h
  refine ⟨(l.map List.length).sum, fun q hq => ?_⟩
  have hm := hl q ((isThere_iff w q).2 (.inr hq))
  exact List.single_le_sum (by simp) _ (List.mem_map_of_mem hm)

/-- Both arguments are accepted if directories are there or can be made. -/
theorem parsePaths_ok {os : Os} {sight : Sight} (hres : ∀ q, sight.resolves q = true) {input output : Path} {w : World Unit}
    (hd : ∀ q, q <+: input ∨ q <+: output → w.dirs q = true ∨ (w.files q = none ∧ os.canMkdir q = true)) (inputFirst : Bool) :
    ∃ w', parsePaths os sight inputFirst input output w = (w', .ok (input, output)) := by
  have key : ∀ x y : Path, (∀ q, q <+: x ∨ q <+: y → w.dirs q = true ∨ (w.files q = none ∧ os.canMkdir q = true)) →
      ∃ w1 w2, canonicalizeCliPath os sight x w = (w1, .ok x) ∧ canonicalizeCliPath os sight y w1 = (w2, .ok y) := by
    intro x y hd
    rcases h1 : canonicalizeCliPath os sight x w with ⟨w1, r⟩
    obtain ⟨⟨a1, _⟩, a2, _, _, a5, a6⟩ := C76_argument os sight x w w1 r h1
    obtain ⟨u, rfl⟩ := a6.2 ⟨hres x, .inr fun q hq => hd q (.inl hq)⟩
    obtain ⟨rfl, _⟩ := a5 u rfl
    rcases h2 : canonicalizeCliPath os sight y w1 with ⟨w2, r⟩
    obtain ⟨_, _, _, _, b5, b6⟩ := C76_argument os sight y w1 w2 r h2
    obtain ⟨v, rfl⟩ := b6.2 ⟨hres y, .inr fun q hq => (hd q (.inr hq)).imp (a2 q) (fun ⟨h, h'⟩ => ⟨by rw [a1]; exact h, h'⟩)⟩
    obtain ⟨rfl, _⟩ := b5 v rfl
    exact ⟨w1, w2, rfl, h2⟩
  unfold parsePaths
  cases inputFirst with
  | true =>
    obtain ⟨w1, w2, h1, h2⟩ := key input output hd
    exact ⟨w2, by simp [h1, h2]⟩
  | false =>
    obtain ⟨w1, w2, h1, h2⟩ := key output input fun q h => hd q h.symm
    exact ⟨w2, by simp [h1, h2]⟩

/-- **C76** (possible): on a file system that is a finite tree, if all directories on the way to the two paths are there or can be made, the process
can end with success, for a true listing, and leaves a finite tree. -/
theorem C76_possible {lib : Lib} {os : Os} {sight : Sight} {p : Dds.Platform} {dbg : Nat → String} {input output : Path}
    {w : World Unit} (inputFirst : Bool) (cmd : Command) (hwf : os.Wf) (hw : Wide p) (hoc : p.overflowChecks = false) (ht : IsTree w)
    (hfin : Finitely w) (h1 : ¬ input <+: output) (h2 : ¬ output <+: input) (hres : ∀ q, sight.resolves q = true)
    (hd : ∀ q, q <+: input ∨ q <+: output → w.dirs q = true ∨ (w.files q = none ∧ os.canMkdir q = true)) :
    ∃ ls w2, Shows ls (parsePaths os sight inputFirst input output w).1 ∧
      Process lib os sight p dbg ls inputFirst input output cmd w w2 .success ∧ IsTree w2 ∧ Finitely w2 := by
  obtain ⟨w', hp⟩ := parsePaths_ok hres hd inputFirst
  obtain ⟨p1, _, p3, _⟩ := parsePaths_spec hp
  obtain ⟨l, hl⟩ := hfin
  have hfin' : ∀ q, isThere w' q = true → q ∈ l ++ input.inits ++ output.inits := by
    intro q hq
    rw [List.mem_append, List.mem_append, List.mem_inits, List.mem_inits]
    rw [isThere_iff, p1] at hq
    rcases hq with h | h
    · exact .inl (.inl (hl q ((isThere_iff w q).2 (.inl h))))
    · rcases p3 q h with h | h | h
      · exact .inl (.inl (hl q ((isThere_iff w q).2 (.inr h))))
      · exact .inl (.inr h)
      · exact .inr h
  obtain ⟨ls, hls⟩ := Finitely.shows ⟨_, hfin'⟩
  obtain ⟨n, hn⟩ := Finitely.bounded ⟨l, hl⟩
  obtain ⟨w2, e, hpr⟩ := (C76_ends (lib := lib) (os := os) (sight := sight) (p := p) (dbg := dbg) (ls := ls) (inputFirst := inputFirst)
    (input := input) (output := output) (cmd := cmd) n hn).1
  obtain ⟨e1, e2, _⟩ := C76_exit hwf hw hoc hls.names h1 h2 hpr
  have he : e = .success := by
    refine e2.resolve_left fun he => ?_
    obtain ⟨_, _, h⟩ := e1.1 he
    rw [hp] at h
    exact nomatch h
  subst he
  refine ⟨ls, w2, by rw [hp]; exact hls, hpr, (C76_frame hls.names h1 h2 hpr).2.2.2 ht, ?_⟩
  obtain ⟨v, entries, jobs, c, hp', hb, hj, _, _, hs, hend, rfl⟩ := process_success hls.names h1 h2 hpr
  rw [hp] at hp'
  cases hp'
  obtain ⟨_, _, c3, c4, _⟩ := C39_schedule_independent_partial hb hj hs hend
  refine ⟨(l ++ input.inits ++ output.inits) ++ entries.flatMap fun q => (targetOf input output q).inits, fun q hq => ?_⟩
  rw [List.mem_append]
  by_cases hex : ∃ i : Fin entries.length, q <+: targetOf input output entries[i]
  · obtain ⟨i, hi⟩ := hex
    exact .inr (List.mem_flatMap.2 ⟨_, List.getElem_mem _, (List.mem_inits _ _).2 hi⟩)
  · left
    apply hfin'
    rw [isThere_iff] at hq ⊢
    rcases hq with hq | hq
    · rw [c3 q fun i h => hex ⟨i, h ▸ List.prefix_refl _⟩] at hq
      exact .inl hq
    · rcases (c4 q).1 hq with h | ⟨i, h⟩
      · exact .inr h
      · obtain ⟨rel, _, r2, r3, _⟩ := hb.rel i
        rcases (foot_dirs _ _ _ (hb.foot hj i) q).2 h with h | h
        · exact .inr h
        · rw [areas_eq r2] at h
          exact absurd ⟨i, by rw [r3]; exact ((List.mem_inits _ _).1 h).trans (List.dropLast_prefix _)⟩ hex

/-- Everything is visible. -/
def clearSight : Sight := ⟨fun _ => true, fun _ => true⟩

theorem presetWorld_tree : IsTree presetWorld ∧ Finitely presetWorld := by
  refine ⟨⟨fun q name h => ?_, fun q h => ?_⟩, [[], ["a"], ["a", "x"], ["a", "y"]], fun q h => ?_⟩
  · simp only [presetWorld] at h ⊢
    rcases h with h | h
    · split at h
      · next hq => simp [List.append_inj_left' (t₁ := [name]) (s₂ := ["a"]) (t₂ := ["x"]) hq rfl]
      · split at h
        · next hq => simp [List.append_inj_left' (t₁ := [name]) (s₂ := ["a"]) (t₂ := ["y"]) hq rfl]
        · simp at h
    · simp [List.append_eq_cons_iff] at h; simp [h]
  · simp only [presetWorld, Bool.or_eq_true, decide_eq_true_eq] at h ⊢
    rcases h with rfl | rfl <;> rfl
  · rw [isThere_iff] at h
    simp only [presetWorld, Bool.or_eq_true, decide_eq_true_eq] at h
    rcases h with h | rfl | rfl
    · split at h
      · next hq => simp [hq]
      · split at h
        · next hq => simp [hq]
        · simp at h
    · simp
    · simp

/-- Non-vacuity: `/a/x` is a BC1 texture, `/a/y` a BC2 texture, and neither `/c` nor `/d` exists.  The two commands of `C76_roundtrip` can
end with success, and the hypotheses of the theorem and of `C76_bc2_hidden` hold for the two files. -/
example : ∃ ls w1 ls' w2, Shows ls (parsePaths kindOs clearSight true ["a"] ["c"] presetWorld).1 ∧
    Process sumLib kindOs clearSight somePlatform (fun _ => "") ls true ["a"] ["c"] (.transform .max) presetWorld w1 .success ∧
    Shows ls' (parsePaths kindOs clearSight false ["c"] ["d"] w1).1 ∧
    Process sumLib kindOs clearSight somePlatform (fun _ => "") ls' false ["c"] ["d"] .untransform w1 w2 .success ∧
    IsTree presetWorld ∧ isThere presetWorld ["c"] = false ∧ isThere presetWorld ["d"] = false ∧ Willing kindOs bc1File.length ∧
    Willing kindOs bc2File.length ∧ IsExtension kindOs ["a", "x"] none := by
  have hwf : kindOs.Wf := fun p n old _ => ⟨_, rfl, by simp⟩
  obtain ⟨ht, hfin⟩ := presetWorld_tree
  obtain ⟨ls, w1, h1, h2, h3, h4⟩ := C76_possible (lib := sumLib) (os := kindOs) (sight := clearSight) (p := somePlatform) (dbg := fun _ => "")
    (input := ["a"]) (output := ["c"]) true (.transform .max) hwf (by unfold Wide; decide) rfl ht hfin (by decide) (by decide) (fun _ => rfl)
    (fun q hq => by
      rw [← List.mem_inits, ← List.mem_inits] at hq
      simp at hq
      rcases hq with (rfl | rfl) | rfl | rfl <;> decide)
  obtain ⟨f1, _, _, _⟩ := C76_frame h1.names (by decide) (by decide) h2
  have hdir : w1.dirs ["c"] = true := by
    obtain ⟨w', entries, jobs, c, hp, hb, hj, _, _, hs, he, rfl⟩ := process_success h1.names (by decide) (by decide) h2
    obtain ⟨_, _, _, q4⟩ := parsePaths_spec hp
    obtain ⟨_, _, _, _, _, q5⟩ := q4 _ _ rfl
    exact ((C39_schedule_independent_partial hb hj hs he).2.2.2.1 ["c"]).2 (.inl (q5 (by decide) (by decide) _ (List.prefix_refl _)))
  obtain ⟨ls', w2, k1, k2, _⟩ := C76_possible (lib := sumLib) (os := kindOs) (sight := clearSight) (p := somePlatform) (dbg := fun _ => "")
    (input := ["c"]) (output := ["d"]) false .untransform hwf (by unfold Wide; decide) rfl h3 h4 (by decide) (by decide) (fun _ => rfl)
    (fun q hq => by
      rw [← List.mem_inits, ← List.mem_inits] at hq
      simp at hq
      rcases hq with (rfl | rfl) | rfl | rfl
      · exact .inl (h3.dirs_up [] ["c"] hdir)
      · exact .inl hdir
      · exact .inl (h3.dirs_up [] ["c"] hdir)
      · exact .inr ⟨by rw [f1 ["d"] (by simp)]; rfl, rfl⟩)
  refine ⟨ls, w1, ls', w2, h1, h2, k1, k2, ht, by decide, by decide, ?_, ?_, .inr ⟨rfl, .inr ⟨["a"], "x", rfl, .inr (by decide)⟩⟩⟩
  all_goals
    exact { canOpen := fun _ => rfl, canSize := fun _ => rfl, canMap := fun _ => rfl, canMapWrite := fun _ => rfl,
            create := fun _ _ => ⟨_, rfl, by simp⟩, fits := by decide +kernel, canMkdir := fun _ => rfl }

/-- Non-vacuity of `C76_missing_input` and `C76_unlisted_input`: an input `/b` that does not exist, and the file `/a/x` as input. -/
example : (isThere presetWorld ["b"] = false ∧ ∃ ls w2, Shows ls (parsePaths kindOs clearSight true ["b"] ["c"] presetWorld).1 ∧
      Process sumLib kindOs clearSight somePlatform (fun _ => "") ls true ["b"] ["c"] .untransform presetWorld w2 .success) ∧
    (parsePaths kindOs clearSight true ["a", "x"] ["c"] presetWorld).2.toOption = some (["a", "x"], ["c"]) := by
  refine ⟨⟨by decide, ?_⟩, by decide⟩
  obtain ⟨ls, w1, h1, h2, _⟩ := C76_possible (lib := sumLib) (os := kindOs) (sight := clearSight) (p := somePlatform) (dbg := fun _ => "")
    (input := ["b"]) (output := ["c"]) true .untransform (fun p n old _ => ⟨_, rfl, by simp⟩) (by unfold Wide; decide) rfl
    presetWorld_tree.1 presetWorld_tree.2 (by decide) (by decide) (fun _ => rfl) (fun q hq => by
      rw [← List.mem_inits, ← List.mem_inits] at hq
      simp at hq
      rcases hq with (rfl | rfl) | rfl | rfl <;> decide)
  exact ⟨ls, w1, h1, h2⟩

end Dlt.Props
