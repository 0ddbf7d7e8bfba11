import Verif.Model.EndianCommand
import Verif.Props.Commands
import Mathlib.Data.String.Basic
/-!
# C77: the command `debug-endian`

The specification: what a directory holds (`IsTree`, `Finitely`), which files are test files (`Suitable`), what stays as it was (`Kept`).
-/

namespace Dlt.Props

open Dlt.FileFormats Dlt.FileIo Dlt.FileIo.Prog Dlt.Cli Dlt.Dds Dlt.FileCompare Dlt.DebugEndian
open Dlt.Embed (TransformFormat)

/-! ## Programs that write below one directory -/

/-- Nothing has changed except below `dir`; no directory has disappeared. -/
structure Kept (dir : Path) (w w' : World Unit) : Prop where
  files : ∀ q, ¬ dir <+: q → w'.files q = w.files q
  dirs : ∀ q, ¬ dir <+: q → w'.dirs q = w.dirs q
  grows : ∀ q, w.dirs q = true → w'.dirs q = true

theorem Kept.refl (dir : Path) (w : World Unit) : Kept dir w w := ⟨fun _ _ => rfl, fun _ _ => rfl, fun _ h => h⟩

theorem Kept.trans {dir : Path} {a b c : World Unit} (h : Kept dir a b) (h' : Kept dir b c) : Kept dir a c :=
  ⟨fun q hq => (h'.files q hq).trans (h.files q hq), fun q hq => (h'.dirs q hq).trans (h.dirs q hq), fun q hq => h'.grows q (h.grows q hq)⟩

/-- `dir` and all directories above it exist. -/
def Rooted (dir : Path) (w : World Unit) : Prop := ∀ q, q <+: dir → w.dirs q = true

theorem Kept.rooted {dir : Path} {w w' : World Unit} (h : Kept dir w w') (hr : Rooted dir w) : Rooted dir w' := fun q hq => h.grows q (hr q hq)

/-- A call that writes below `dir` only. -/
def OpIn (dir : Path) {β : Type} : Sys Unit β → Prop
  | .create p _ => dir <+: p
  | .store p _ => dir <+: p
  | .mkdir p => dir <+: p ∨ p <+: dir
  | _ => True

/-- A program that writes below `dir` only. -/
def Confined {α : Type} (dir : Path) : Prog Unit α → Prop
  | .ret _ => True
  | .panic => True
  | .op s k => OpIn dir s ∧ ∀ b, Confined dir (k b)

theorem setFile_kept {dir p : Path} {w : World Unit} {c : Option Buf} (hp : dir <+: p) : Kept dir w (w.setFile p c) := by
  refine ⟨fun q hq => ?_, fun _ _ => rfl, fun _ h => h⟩
  unfold World.setFile
  exact if_neg (fun e : q = p => hq (e ▸ hp))

theorem exec_kept {dir : Path} {β : Type} {os : Os} {w : World Unit} (hr : Rooted dir w) (s : Sys Unit β) (hs : OpIn dir s) :
    Kept dir w (exec os s w).1 := by
  cases s with
  | openRead p => exact .refl _ _
  | size p =>
    unfold exec
    dsimp only
    split <;> exact .refl _ _
  | mapRead p n =>
    unfold exec
    dsimp only
    split
    · exact .refl _ _
    · split
      · split <;> exact .refl _ _
      · exact .refl _ _
  | create p n =>
    unfold exec
    dsimp only
    split
    · exact setFile_kept hs
    · exact .refl _ _
  | mapWrite p n =>
    unfold exec
    dsimp only
    split
    · exact .refl _ _
    · split
      · split <;> exact .refl _ _
      · exact .refl _ _
  | store p b =>
    unfold exec
    dsimp only
    split
    · exact .refl _ _
    · split
      · exact setFile_kept hs
      · exact .refl _ _
  | mkdir p =>
    rw [exec_mkdir]
    split
    · refine ⟨fun _ _ => rfl, fun q hq => ?_, fun q h => ?_⟩
      · dsimp only
        split
        · next e =>
          subst e
          rcases hs with hs | hs
          · exact absurd hs hq
          · exact (hr q hs).symm
        · rfl
      · dsimp only
        split
        · rfl
        · exact h
    · exact .refl _ _
  | fileLen p => exact .refl _ _
  | add n => exact ⟨fun _ _ => rfl, fun _ _ => rfl, fun _ h => h⟩
  | call f =>
    unfold exec
    dsimp only
    split
    · exact .refl _ _
    · exact ⟨fun _ _ => rfl, fun _ _ => rfl, fun _ h => h⟩

theorem run_kept {dir : Path} {α : Type} {os : Os} : ∀ (x : Prog Unit α) (w : World Unit), Rooted dir w → Confined dir x →
    Kept dir w (run os x w).1
  | .ret _, w, _, _ => .refl _ _
  | .panic, w, _, _ => .refl _ _
  | .op s k, w, hr, hc => by
    have h1 := exec_kept (os := os) hr s hc.1
    rw [run_op]
    rcases he : exec os s w with ⟨w1, _ | b⟩
    · rw [he] at h1; exact h1
    · rw [he] at h1
      exact h1.trans (run_kept (k b) w1 (h1.rooted hr) (hc.2 b))

section
variable {α β E : Type} {dir : Path}

theorem confined_ret (v : α) : Confined dir (.ret v) := trivial

theorem confined_bind {f : α → Prog Unit β} (hf : ∀ v, Confined dir (f v)) : ∀ (x : Prog Unit α), Confined dir x → Confined dir (x.bind f)
  | .ret v, _ => hf v
  | .panic, _ => trivial
  | .op _ k, h => ⟨h.1, fun b => confined_bind hf (k b) (h.2 b)⟩

theorem confined_try {s : Sys Unit (Except IoError β)} {k : β → Prog Unit (Except FileError α)} (hs : OpIn dir s)
    (hk : ∀ b, Confined dir (k b)) : Confined dir (try' s k) := by
  refine ⟨hs, fun b => ?_⟩
  cases b with
  | error e => trivial
  | ok b => exact hk b

theorem confined_withInput {os : Os} {p : Path} {k : Buf → Prog Unit (Except FileError α)} (hk : ∀ b, Confined dir (k b)) :
    Confined dir (withInput os p k) :=
  confined_try trivial fun _ => confined_try trivial fun _ => confined_try trivial fun b => hk b

theorem confined_intoFile {out : Path} (ho : dir <+: out) {n : Nat} {f : Buf → Unit → Option (Res Unit α)} :
    Confined dir (intoFile out n f) :=
  confined_try ho fun _ => confined_try trivial fun _ => ⟨trivial, fun _ => ⟨ho, fun _ => trivial⟩⟩

theorem confined_tryHandlers {detect : Handler Unit E → Unit → Option (Unit × Bool)} {go : Handler Unit E → Prog Unit α} {rejected : α}
    (hg : ∀ h, Confined dir (go h)) : ∀ hs, Confined dir (tryHandlers detect go rejected hs)
  | [] => trivial
  | h :: hs => ⟨trivial, fun b => by
    cases b
    · exact confined_tryHandlers hg hs
    · exact hg h⟩

theorem confined_transformFile {os : Os} {inp out : Path} (ho : dir <+: out) (hs : List (Handler Unit E)) (bundle : Bundle Unit E) :
    Confined dir (transformFileWithMultipleHandlers os hs inp out bundle) :=
  confined_withInput fun _ => confined_tryHandlers (fun _ => confined_intoFile ho) hs

theorem confined_untransformFile {os : Os} {inp out : Path} (ho : dir <+: out) (hs : List (Handler Unit E)) :
    Confined dir (untransformFileWithMultipleHandlers os hs inp out) :=
  confined_withInput fun _ => confined_tryHandlers (fun _ => confined_intoFile ho) hs

theorem confined_createDirAll {k : Prog Unit (Except FileError α)} (hk : Confined dir k) :
    ∀ (rest : List String) (base : Path), dir <+: base ++ rest → Confined dir (createDirAll base rest k)
  | [], base, h => confined_try (.inl (by simpa using h)) fun _ => hk
  | name :: rest, base, h =>
    confined_try (List.prefix_or_prefix_of_prefix h (List.prefix_append base _)) fun _ =>
      confined_createDirAll hk rest (base ++ [name]) (by simpa using h)

theorem confined_orFail {x : Prog Unit (Except FileError α)} {k : α → Prog Unit (Except CmdError β)} (hx : Confined dir x)
    (hk : ∀ a, Confined dir (k a)) : Confined dir (orFail x k) := by
  refine confined_bind (fun v => ?_) x hx
  cases v with
  | error e => trivial
  | ok a => exact hk a

theorem below_append {a : Path} (h : dir <+: a) (b : Path) : dir <+: a ++ b := h.trans (List.prefix_append a b)

theorem confined_formatLoop {data : Buf} {ext : Option String} {filter : Dds.Filter} :
    ∀ hs : List (DebugIo.Handler Unit), Confined dir (DebugIo.formatLoop data ext filter hs)
  | [] => trivial
  | h :: hs => ⟨trivial, fun b => by
    cases b
    · exact confined_formatLoop hs
    · exact ⟨trivial, fun _ => trivial⟩⟩

theorem confined_testAllCombinations {os : Os} {hs : List (Handler Unit E)} {inp out : Path} (ho : dir <+: out)
    {build : ApiVariant → Bool → Bundle Unit E} : ∀ l, Confined dir (testAllCombinations os hs inp out build l)
  | [] => trivial
  | (v, split) :: rest => by
    refine confined_bind (fun r => ?_) _ (confined_transformFile ho hs _)
    cases r with
    | ok _ => trivial
    | error _ => exact confined_testAllCombinations ho rest

theorem confined_transformSingleFile {os : Os} {pl : Dds.Platform} {dbg : E → String} {inp outDir : Path} (ho : dir <+: outDir) :
    Confined dir (transformSingleFile (σ := Unit) os pl dbg inp outDir) := by
  refine confined_orFail (confined_createDirAll (confined_ret _) _ _ ho) fun _ => ?_
  split
  · trivial
  · refine confined_orFail (confined_withInput fun _ => confined_formatLoop _) fun _ => ?_
    split
    · trivial
    · exact confined_testAllCombinations (below_append ho _) _
    · exact confined_testAllCombinations (below_append ho _) _
    · trivial

theorem confined_untransformLoop {os : Os} {hs : List (Handler Unit E)} {inpDir outDir : Path} (ho : dir <+: outDir) :
    ∀ names, Confined dir (untransformLoop os hs inpDir outDir names)
  | [] => trivial
  | name :: names => by
    refine ⟨trivial, fun len => ?_⟩
    dsimp only
    split
    · exact confined_orFail (confined_untransformFile (below_append ho _) hs) fun _ => confined_untransformLoop ho names
    · exact confined_untransformLoop ho names

theorem confined_untransformSingleFile {os : Os} {pl : Dds.Platform} {dbg : E → String} {names : Option (List String)} {inpDir outDir : Path}
    (ho : dir <+: outDir) : Confined dir (untransformSingleFile (σ := Unit) os pl dbg names inpDir outDir) := by
  refine confined_orFail (confined_createDirAll (confined_ret _) _ _ ho) fun _ => ?_
  split
  · trivial
  · exact confined_untransformLoop ho _

theorem canonicalize_kept {os : Os} {sight : Sight} {path : Path} (hp : dir <+: path) {w : World Unit} (hr : Rooted dir w) :
    Kept dir w (canonicalizeCliPath os sight path w).1 := by
  unfold canonicalizeCliPath
  dsimp only
  split
  · exact .refl _ _
  · have := run_kept (os := os) (createDirAll [] path (.ret (.ok ()))) w hr (confined_createDirAll (confined_ret _) path [] hp)
    split <;> (next h => rw [h] at this; exact this)

theorem parsePaths_kept {os : Os} {sight : Sight} {inputFirst : Bool} {inp out : Path} (hi : dir <+: inp) (ho : dir <+: out) {w : World Unit}
    (hr : Rooted dir w) : Kept dir w (parsePaths os sight inputFirst inp out w).1 := by
  have hx : ∀ b : Bool, dir <+: (if b then inp else out) := by intro b; cases b <;> simpa
  have hy : ∀ b : Bool, dir <+: (if b then out else inp) := by intro b; cases b <;> simpa
  have h1 := canonicalize_kept (os := os) (sight := sight) (hx inputFirst) hr
  unfold parsePaths
  split
  · next h => rw [h] at h1; exact h1
  · next h =>
    rw [h] at h1
    have h2 := canonicalize_kept (os := os) (sight := sight) (hy inputFirst) (h1.rooted hr)
    split <;> (next h => rw [h] at h2; exact h1.trans h2)

theorem crossRun_kept {lab : Lab Unit E} {big : Bool} {handler : World Unit → Path → Path → Prog Unit (Except CmdError Unit)} {inp out : Path}
    (hh : ∀ w i o, dir <+: i → dir <+: o → Confined dir (handler w i o)) (hi : dir <+: inp) (ho : dir <+: out) {w : World Unit}
    (hr : Rooted dir w) : Kept dir w (crossRun lab big handler inp out w).1 := by
  unfold crossRun
  split
  · exact .refl _ _
  · exact .refl _ _
  · unfold toolProcess
    have h1 := parsePaths_kept (os := lab.os) (sight := lab.sight) (inputFirst := true) hi ho hr
    rcases hp : parsePaths lab.os lab.sight true inp out w with ⟨w1, _ | ⟨i, o⟩⟩
    · rw [hp] at h1; exact h1
    · rw [hp] at h1
      obtain ⟨rfl, rfl, _⟩ := (parsePaths_spec hp).2.2.2 i o rfl
      exact h1.trans (run_kept _ _ (h1.rooted hr) (hh _ _ _ hi ho))

theorem transformCommand_kept {lab : Lab Unit E} {big : Bool} {inp out : Path} (hi : dir <+: inp) (ho : dir <+: out) {w : World Unit}
    (hr : Rooted dir w) : Kept dir w (runTransformCommand lab big inp out w).1 :=
  crossRun_kept (fun _ _ _ _ ho => confined_transformSingleFile ho) hi ho hr

theorem untransformCommand_kept {lab : Lab Unit E} {big : Bool} {inp out : Path} (hi : dir <+: inp) (ho : dir <+: out) {w : World Unit}
    (hr : Rooted dir w) : Kept dir w (runUntransformCommand lab big inp out w).1 :=
  crossRun_kept (fun _ _ _ _ ho => confined_untransformSingleFile ho) hi ho hr

theorem testFile_kept {lab : Lab Unit E} {inpLe inpBe : Path} {d : Dirs} (hl : dir <+: inpLe) (hb : dir <+: inpBe)
    (hd : ∀ p ∈ [d.transformLe, d.transformBe, d.untransformLe, d.untransformBe], dir <+: p) {w : World Unit} (hr : Rooted dir w) :
    Kept dir w (testFile lab inpLe inpBe d w).1 := by
  have h1 := hd d.transformLe (by simp)
  have h2 := hd d.transformBe (by simp)
  have h3 := hd d.untransformLe (by simp)
  have h4 := hd d.untransformBe (by simp)
  unfold testFile
  have k1 := transformCommand_kept (lab := lab) (big := false) hl h1 hr
  split
  · next h => rw [h] at k1; exact k1
  next w1 _ h =>
  rw [h] at k1
  have k2 := k1.trans (transformCommand_kept (lab := lab) (big := true) hb h2 (k1.rooted hr))
  split
  · next h => rw [h] at k2; exact k2
  next w2 _ h =>
  rw [h] at k2
  split
  swap
  · exact k2
  split
  · exact k2
  · exact k2
  have k3 := k2.trans (untransformCommand_kept (lab := lab) (big := false) h1 h3 (k2.rooted hr))
  split
  · next h => rw [h] at k3; exact k3
  next w3 _ h =>
  rw [h] at k3
  have k4 := k3.trans (untransformCommand_kept (lab := lab) (big := true) h2 h4 (k3.rooted hr))
  split
  · next h => rw [h] at k4; exact k4
  next w4 _ h =>
  rw [h] at k4
  split
  · split <;> exact k4
  · exact k4

theorem copyFile_kept {site : Site Unit E} {src dst : Path} (hd : dir <+: dst) {w : World Unit} : Kept dir w (copyFile site src dst w).1 := by
  unfold copyFile
  split
  · exact .refl _ _
  · split
    · split <;> exact setFile_kept hd
    · exact .refl _ _

theorem confined_createDirs : ∀ l : List Path, (∀ p ∈ l, dir <+: p) → Confined dir (createDirs l)
  | [], _ => trivial
  | p :: l, h => confined_createDirAll (confined_createDirs l fun q hq => h q (by simp [hq])) p [] (h p (by simp))

theorem testIn_kept {site : Site Unit E} {temp path : Path} {w : World Unit} (hr : Rooted temp w) :
    Kept temp w (testIn site temp path w).1 := by
  have hb : ∀ s : String, temp <+: temp ++ [s] := fun s => List.prefix_append _ _
  unfold testIn
  split
  · exact .refl _ _
  next base _ =>
  dsimp only
  have k1 := run_kept (os := site.os) (createDirs [temp ++ [base ++ "_le"], temp ++ [base ++ "_be"], temp ++ [base ++ "_transform_le"],
    temp ++ [base ++ "_transform_be"], temp ++ [base ++ "_untransform_le"], temp ++ [base ++ "_untransform_be"]]) w hr
    (confined_createDirs _ fun p hp => by
      simp only [List.mem_cons, List.not_mem_nil, or_false] at hp
      rcases hp with rfl | rfl | rfl | rfl | rfl | rfl <;> exact hb _)
  split
  · next h => rw [h] at k1; exact k1
  · next h => rw [h] at k1; exact k1
  next w1 h =>
  rw [h] at k1
  have k2 := k1.trans (copyFile_kept (site := site) (src := path) (w := w1) (below_append (hb (base ++ "_le")) [fileName path]))
  split
  · next h => rw [h] at k2; exact k2
  next w2 h =>
  rw [h] at k2
  have k3 := k2.trans (copyFile_kept (site := site) (src := path) (w := w2) (below_append (hb (base ++ "_be")) [fileName path]))
  split
  · next h => rw [h] at k3; exact k3
  next w3 h =>
  rw [h] at k3
  refine k3.trans (testFile_kept (below_append (hb _) _) (below_append (hb _) _) (fun p hp => ?_) (k3.rooted hr))
  simp only [List.mem_cons, List.not_mem_nil, or_false] at hp
  rcases hp with rfl | rfl | rfl | rfl <;> exact hb _

end

/-! ## The search for test files -/

/-- A call that changes nothing. -/
def OpQuiet {β : Type} : Sys Unit β → Prop
  | .create _ _ => False
  | .store _ _ => False
  | .mkdir _ => False
  | .add _ => False
  | _ => True

/-- A program that changes nothing. -/
def Quiet {α : Type} : Prog Unit α → Prop
  | .ret _ => True
  | .panic => True
  | .op s k => OpQuiet s ∧ ∀ b, Quiet (k b)

theorem exec_quiet {β : Type} {os : Os} {w : World Unit} (s : Sys Unit β) (hs : OpQuiet s) : (exec os s w).1 = w := by
  cases s with
  | create _ _ => exact absurd hs id
  | store _ _ => exact absurd hs id
  | mkdir _ => exact absurd hs id
  | add _ => exact absurd hs id
  | openRead p => rfl
  | fileLen p => rfl
  | size p =>
    unfold exec
    dsimp only
    split <;> rfl
  | mapRead p n =>
    unfold exec
    dsimp only
    split
    · rfl
    · split
      · split <;> rfl
      · rfl
  | mapWrite p n =>
    unfold exec
    dsimp only
    split
    · rfl
    · split
      · split <;> rfl
      · rfl
  | call f =>
    unfold exec
    dsimp only
    split <;> rfl

theorem run_quiet {α : Type} {os : Os} : ∀ (x : Prog Unit α) (w : World Unit), Quiet x → (run os x w).1 = w
  | .ret _, w, _ => rfl
  | .panic, w, _ => rfl
  | .op s k, w, h => by
    have h1 := exec_quiet (os := os) (w := w) s h.1
    rw [run_op]
    rcases he : exec os s w with ⟨w1, _ | b⟩
    · rw [he] at h1; exact h1
    · rw [he] at h1
      exact (run_quiet (k b) w1 (h.2 b)).trans h1

theorem quiet_ret {α : Type} (v : α) : Quiet (.ret v) := trivial

theorem quiet_bind {α β : Type} {f : α → Prog Unit β} (hf : ∀ v, Quiet (f v)) : ∀ (x : Prog Unit α), Quiet x → Quiet (x.bind f)
  | .ret v, _ => hf v
  | .panic, _ => trivial
  | .op _ k, h => ⟨h.1, fun b => quiet_bind hf (k b) (h.2 b)⟩

theorem quiet_try {α β : Type} {s : Sys Unit (Except IoError β)} {k : β → Prog Unit (Except FileError α)} (hs : OpQuiet s)
    (hk : ∀ b, Quiet (k b)) : Quiet (try' s k) := by
  refine ⟨hs, fun b => ?_⟩
  cases b with
  | error e => trivial
  | ok b => exact hk b

theorem quiet_formatLoop {data : Buf} {ext : Option String} {filter : Dds.Filter} :
    ∀ hs : List (DebugIo.Handler Unit), Quiet (DebugIo.formatLoop data ext filter hs)
  | [] => trivial
  | h :: hs => ⟨trivial, fun b => by
    cases b
    · exact quiet_formatLoop hs
    · exact ⟨trivial, fun _ => trivial⟩⟩

theorem quiet_isTestFile {os : Os} {pl : Dds.Platform} {path : Path} : Quiet (isTestFile (σ := Unit) os pl path) := by
  unfold isTestFile
  split
  · split
    · trivial
    · refine quiet_bind (fun _ => quiet_ret _) _ (quiet_bind (fun _ => quiet_ret _) _ ?_)
      exact quiet_try trivial fun _ => quiet_try trivial fun _ => quiet_try trivial fun _ => quiet_formatLoop _
  · trivial

theorem quiet_filterFiles {os : Os} {pl : Dds.Platform} : ∀ l, Quiet (filterFiles (σ := Unit) os pl l)
  | [] => trivial
  | _ :: rest => quiet_bind (fun _ => quiet_bind (fun _ => quiet_ret _) _ (quiet_filterFiles rest)) _ quiet_isTestFile

theorem getTestFiles_world {E : Type} (site : Site Unit E) (w : World Unit) : (getTestFiles site w).1 = w := by
  unfold getTestFiles
  split
  · rfl
  next entries _ =>
    have := run_quiet (os := site.os) (filterFiles site.os site.host entries) w (quiet_filterFiles _)
    split <;> (next h => rw [h] at this; exact this)

theorem insertByName_perm (p : Path) : ∀ l, (insertByName p l).Perm (p :: l)
  | [] => .refl _
  | q :: l => by
    unfold insertByName
    split
    · exact ((insertByName_perm p l).cons q).trans (.swap p q l)
    · exact .refl _

theorem sortByName_perm : ∀ l, (sortByName l).Perm l
  | [] => .refl _
  | p :: l => (insertByName_perm p (sortByName l)).trans ((sortByName_perm l).cons p)

theorem insertByName_sorted (p : Path) : ∀ l, l.Pairwise (fun a b => fileName a ≤ fileName b) →
    (insertByName p l).Pairwise (fun a b => fileName a ≤ fileName b)
  | [], _ => by simp [insertByName]
  | q :: l, h => by
    rw [List.pairwise_cons] at h
    unfold insertByName
    split
    · next hlt =>
      refine List.pairwise_cons.2 ⟨fun a ha => ?_, insertByName_sorted p l h.2⟩
      rcases List.mem_cons.1 ((insertByName_perm p l).mem_iff.1 ha) with rfl | ha
      · exact le_of_lt hlt
      · exact h.1 a ha
    · next hge =>
      refine List.pairwise_cons.2 ⟨fun a ha => ?_, List.pairwise_cons.2 h⟩
      rcases List.mem_cons.1 ha with rfl | ha
      · exact not_lt.1 hge
      · exact le_trans (not_lt.1 hge) (h.1 a ha)

theorem sortByName_sorted : ∀ l, (sortByName l).Pairwise (fun a b => fileName a ≤ fileName b)
  | [] => .nil
  | p :: l => insertByName_sorted p _ (sortByName_sorted l)

/-- A test file: its name ends in `.dds`, as does its extension unless it has none, and the contents begin with the header of a BC1 or BC2
texture. -/
structure Suitable (os : Os) (w : World Unit) (path : Path) (f : DebugIo.Format) (data : Buf) : Prop where
  file : w.files path = some data
  name : ∃ dir name stem, path = dir ++ [name] ∧ os.lower name = stem ++ ".dds"
  ext : ∃ ext, IsExtension os path ext ∧ (ext = none ∨ ext = some "dds")
  tested : Tested f
  dds : IsDds data
  format : classify data = ddsName f

theorem run_getTransformFormat {os : Os} {pl : Dds.Platform} (hw : Wide pl) (hoc : pl.overflowChecks = false) {w : World Unit} {path : Path}
    {data : Buf} (hr : Readable os w path data) {ext : Option String} (hext : IsExtension os path ext) :
    ∃ r, run os (DebugIo.getTransformFormat os path (DebugIo.allHandlers pl) .all) w = (w, some r) ∧
      ∀ f, Tested f → (r = .ok (some (formatName f)) ↔ (ext = none ∨ ext = some "dds") ∧ IsDds data ∧ classify data = ddsName f) := by
  have he : extractLowercaseExtension os path = ext := extension_spec hext
  unfold DebugIo.getTransformFormat
  rw [run_withInput hr, he]
  by_cases hx : ext = none ∨ ext = some "dds"
  · by_cases hd : IsDds data
    · have hcan : Dds.canHandle pl data ext = some true := (((C33_detection pl data ext).2 hx).2 hd).2 hoc
      obtain ⟨info, hi⟩ := ((C33_parse pl data).2.1 hd).2.1 hoc
      obtain ⟨h1, h2⟩ := (C54_extraction pl hw data .all).2 info hi
      rcases hs : sameName (classify data) with _ | g
      · refine ⟨.error (.transform (.formatHandler .unknownFileFormat)), by
          simp [DebugIo.allHandlers, DebugIo.formatLoop, DebugIo.ddsHandler, run, exec, hcan, (h1 hs).2, Except.mapError], ?_⟩
        intro f hf
        constructor
        · exact fun h => nomatch h
        · rintro ⟨_, _, h⟩
          rw [h] at hs
          cases hf <;> exact nomatch hs
      · refine ⟨.ok (some g), by
          simp [DebugIo.allHandlers, DebugIo.formatLoop, DebugIo.ddsHandler, run, exec, hcan, ((h2 g hs).2 (passes_all _)).1,
            Except.mapError], ?_⟩
        intro f hf
        constructor
        · intro h
          simp only [Except.ok.injEq, Option.some.injEq] at h
          refine ⟨hx, hd, ?_⟩
          subst h
          cases hc : classify data <;> rw [hc] at hs <;> cases hf <;> first | rfl | exact nomatch hs
        · rintro ⟨_, _, h⟩
          rw [h] at hs
          cases hf <;> (cases hs; rfl)
    · have hcan := ((C33_detection pl data ext).2 hx).1 hd
      refine ⟨.ok none, by simp [DebugIo.allHandlers, DebugIo.formatLoop, DebugIo.ddsHandler, run, exec, hcan], fun f hf => ⟨(fun h => nomatch h), ?_⟩⟩
      rintro ⟨_, h, _⟩
      exact absurd h hd
  · have hcan := (C33_detection pl data ext).1 (fun h => hx (.inl h)) (fun h => hx (.inr h))
    refine ⟨.ok none, by simp [DebugIo.allHandlers, DebugIo.formatLoop, DebugIo.ddsHandler, run, exec, hcan], fun f hf => ⟨(fun h => nomatch h), ?_⟩⟩
    rintro ⟨h, _⟩
    exact absurd h hx

theorem suffix_dds (s : String) : ".dds".toList.isSuffixOf s.toList = true ↔ ∃ stem, s = stem ++ ".dds" := by
  rw [List.isSuffixOf_iff_suffix]
  constructor
  · rintro ⟨t, ht⟩
    refine ⟨String.ofList t, ?_⟩
    rw [← String.toList_inj, String.toList_append, String.toList_ofList]
    exact ht.symm
  · rintro ⟨stem, rfl⟩
    rw [String.toList_append]
    exact List.suffix_append _ _

theorem run_isTestFile {os : Os} {pl : Dds.Platform} (hw : Wide pl) (hoc : pl.overflowChecks = false) {w : World Unit} {path : Path}
    {data : Buf} (hr : Readable os w path data) :
    ∃ yes, run os (isTestFile os pl path) w = (w, some yes) ∧ (yes = true ↔ ∃ f, Suitable os w path f data) := by
  obtain ⟨ext, hext⟩ := extension_exists os path
  obtain ⟨r, hrun, hsel⟩ := run_getTransformFormat hw hoc hr hext
  unfold isTestFile
  rcases hl : path.getLast? with _ | name
  · refine ⟨false, rfl, ⟨(fun h => nomatch h), ?_⟩⟩
    rintro ⟨f, hs⟩
    obtain ⟨dir, name, stem, h, _⟩ := hs.name
    rw [h, List.getLast?_concat] at hl
    exact nomatch hl
  · dsimp only
    have hpath : path = path.dropLast ++ [name] := by
      have := List.dropLast_append_getLast? name (by rw [hl]; rfl)
      exact this.symm
    by_cases hn : ".dds".toList.isSuffixOf (os.lower name).toList = true
    · rw [hn]
      simp only [Bool.not_true, Bool.false_eq_true, if_false]
      unfold isSupportedFormat
      rw [run_bind, run_bind, hrun]
      refine ⟨_, rfl, ?_⟩
      have key : ∀ f, Suitable os w path f data ↔ Tested f ∧ r = .ok (some (formatName f)) := by
        intro f
        constructor
        · intro hs
          obtain ⟨ext', he', hx'⟩ := hs.ext
          have : ext' = ext := (extension_spec he').symm.trans (extension_spec hext)
          subst this
          exact ⟨hs.tested, (hsel f hs.tested).2 ⟨hx', hs.dds, hs.format⟩⟩
        · rintro ⟨hf, h⟩
          obtain ⟨h1, h2, h3⟩ := (hsel f hf).1 h
          obtain ⟨stem, hst⟩ := (suffix_dds _).1 hn
          exact ⟨hr.file, ⟨_, name, stem, hpath, hst⟩, ⟨ext, hext, h1⟩, hf, h2, h3⟩
      constructor
      · intro h
        split at h
        · next hy =>
          split at hy
          · exact ⟨.bc1, (key _).2 ⟨.bc1, rfl⟩⟩
          · exact ⟨.bc2, (key _).2 ⟨.bc2, rfl⟩⟩
          · simp only [Except.ok.injEq] at hy; rw [← hy] at h; exact nomatch h
          · simp only [Except.ok.injEq] at hy; rw [← hy] at h; exact nomatch h
          · exact nomatch hy
        · exact nomatch h
      · rintro ⟨f, hs⟩
        obtain ⟨hf, h⟩ := (key f).1 hs
        subst h
        cases hf <;> rfl
    · rw [Bool.eq_false_iff.2 hn]
      refine ⟨false, rfl, ⟨(fun h => nomatch h), ?_⟩⟩
      rintro ⟨f, hs⟩
      obtain ⟨dir, nm, stem, h, hst⟩ := hs.name
      rw [h, List.getLast?_concat, Option.some.injEq] at hl
      subst hl
      exact absurd ((suffix_dds _).2 ⟨stem, hst⟩) hn

theorem run_filterFiles {os : Os} {pl : Dds.Platform} (hw : Wide pl) (hoc : pl.overflowChecks = false) {w : World Unit} :
    ∀ l : List Path, (∀ p ∈ l, ∃ data, Readable os w p data) →
      ∃ files, run os (filterFiles os pl l) w = (w, some files) ∧ files.Sublist l ∧
        ∀ p, p ∈ files ↔ p ∈ l ∧ ∃ f data, Suitable os w p f data
  | [], _ => ⟨[], rfl, .refl _, by simp⟩
  | p :: l, h => by
    obtain ⟨data, hr⟩ := h p (by simp)
    obtain ⟨yes, h1, h2⟩ := run_isTestFile hw hoc hr
    obtain ⟨files, h3, h4, h5⟩ := run_filterFiles hw hoc l fun q hq => h q (by simp [hq])
    refine ⟨_, by unfold filterFiles; rw [run_bind, h1]; dsimp only; rw [run_bind, h3]; rfl, ?_, fun q => ?_⟩
    · cases yes
      · exact h4.cons p
      · exact h4.cons₂ p
    · have hu : (∃ f data, Suitable os w p f data) ↔ yes = true := by
        rw [h2]
        constructor
        · rintro ⟨f, d, hs⟩
          have : d = data := Option.some.inj (hs.file.symm.trans hr.file)
          subst this
          exact ⟨f, hs⟩
        · rintro ⟨f, hs⟩
          exact ⟨f, data, hs⟩
      cases yes
      · simp only [Bool.false_eq_true, if_false, List.mem_cons, h5]
        constructor
        · rintro ⟨h, h'⟩; exact ⟨.inr h, h'⟩
        · rintro ⟨rfl | h, h'⟩
          · exact absurd (hu.1 h') (by simp)
          · exact ⟨h, h'⟩
      · simp only [if_true, List.mem_cons, h5]
        constructor
        · rintro (rfl | ⟨h, h'⟩)
          · exact ⟨.inl rfl, hu.2 rfl⟩
          · exact ⟨.inr h, h'⟩
        · rintro ⟨rfl | h, h'⟩
          · exact .inl rfl
          · exact .inr ⟨h, h'⟩

/-- **C77** (the test files): the command tests exactly the files below `assets/tests` whose name ends in `.dds` and whose header announces a BC1 or
BC2 texture, complete or not, each once and in the order of their names. -/
theorem C77_test_files {E : Type} (site : Site Unit E) (w : World Unit) (ht : IsTree w) (hls : Shows site.ls w)
    (hw : Wide site.host) (hoc : site.host.overflowChecks = false) (hroot : w.dirs (site.root ++ ["assets"] ++ ["tests"]) = true)
    (hdepth : ∀ q, w.dirs q = true → q.length ≤ site.depth)
    (hread : ∀ q b, w.files q = some b → MayRead site.os q b.length) :
    ∃ files, getTestFiles site w = (w, some files) ∧ files.Nodup ∧ files.Pairwise (fun a b => fileName a ≤ fileName b) ∧
      ∀ p, p ∈ files ↔ (site.root ++ ["assets"] ++ ["tests"]) <+: p ∧ ∃ f data, Suitable site.os w p f data := by
  have hd1 := hdepth _ hroot
  obtain ⟨n, hn⟩ : ∃ n, site.depth = n + 1 := ⟨site.depth - 1, by simp at hd1; omega⟩
  obtain ⟨entries, hent⟩ := findAllFiles_ends site.ls w.dirs site.depth hdepth n (site.root ++ ["assets"] ++ ["tests"]) (by simp; omega)
  obtain ⟨e1, e2⟩ := C39_find_all_files site.ls hls.names w.dirs _ _ _ hent
  have efile : ∀ p, p ∈ entries ↔ (site.root ++ ["assets"] ++ ["tests"]) <+: p ∧ (w.files p).isSome = true := by
    intro p
    rw [e2]
    constructor
    · rintro ⟨rel, hne, rfl, hnd, hl, hp⟩
      refine ⟨List.prefix_append _ _, ?_⟩
      rcases List.eq_nil_or_concat rel with rfl | ⟨r, name, rfl⟩
      · exact absurd rfl hne
      · rw [List.concat_eq_append] at *
        have h1 := hl r name (List.prefix_refl _)
        have h2 : w.dirs (site.root ++ ["assets"] ++ ["tests"] ++ r) = true := by
          by_cases hr : r = []
          · subst hr; rw [List.append_nil]; exact hroot
          · exact hp r hr (List.prefix_append _ _) (by simp)
        have h3 := (hls.all _ h2 name).1 h1
        rw [isThere_iff, List.append_assoc, hnd] at h3
        simpa using h3
    · rintro ⟨⟨rel, rfl⟩, hf⟩
      have hne : rel ≠ [] := by
        rintro rfl
        rw [List.append_nil, ht.notBoth _ hroot] at hf
        exact nomatch hf
      have hup : ∀ r, r <+: rel → r ≠ rel → w.dirs (site.root ++ ["assets"] ++ ["tests"] ++ r) = true := by
        rintro r ⟨t, rfl⟩ hne
        refine ht.above t _ (by rw [List.append_assoc]; exact hf) ?_
        rintro rfl
        exact hne (by simp)
      refine ⟨rel, hne, rfl, ?_, fun r name hp => ?_, fun r _ hp hne => hup r hp hne⟩
      · rw [Bool.eq_false_iff]
        intro h
        rw [ht.notBoth _ h] at hf
        exact nomatch hf
      · have hr := hup r ((List.prefix_append r [name]).trans hp) (fun e => by
          have := hp.length_le
          rw [e] at this
          simp at this)
        rw [hls.all _ hr, isThere_iff]
        by_cases he : r ++ [name] = rel
        · rw [List.append_assoc, he]; exact .inl hf
        · rw [List.append_assoc]; exact .inr (hup _ hp he)
  obtain ⟨files, h1, h2, h3⟩ := run_filterFiles (os := site.os) hw hoc (w := w) entries fun p hp => by
    obtain ⟨b, hb⟩ := Option.isSome_iff_exists.1 ((efile p).1 hp).2
    obtain ⟨r1, r2, r3, r4⟩ := hread p b hb
    exact ⟨b, hb, r1, r2, r3, r4⟩
  refine ⟨sortByName files, ?_, ?_, sortByName_sorted _, fun p => ?_⟩
  · unfold getTestFiles
    rw [hn, hent]
    dsimp only
    rw [h1]
  · exact (sortByName_perm files).nodup_iff.2 (h2.nodup e1)
  · rw [(sortByName_perm files).mem_iff, h3, efile]
    constructor
    · rintro ⟨⟨a, _⟩, b⟩; exact ⟨a, b⟩
    · rintro ⟨a, f, d, hs⟩
      exact ⟨⟨a, by rw [hs.file]; rfl⟩, f, d, hs⟩

/-! ## What the command leaves alone -/

/-- Outside `dir` nothing has changed, except that directories above it may have been made. -/
structure Spared (dir : Path) (w w' : World Unit) : Prop where
  files : ∀ q, ¬ dir <+: q → w'.files q = w.files q
  dirs : ∀ q, ¬ dir <+: q → ¬ q <+: dir → w'.dirs q = w.dirs q
  grows : ∀ q, ¬ dir <+: q → w.dirs q = true → w'.dirs q = true

theorem Spared.refl (dir : Path) (w : World Unit) : Spared dir w w := ⟨fun _ _ => rfl, fun _ _ _ => rfl, fun _ _ h => h⟩

theorem Spared.trans {dir : Path} {a b c : World Unit} (h : Spared dir a b) (h' : Spared dir b c) : Spared dir a c :=
  ⟨fun q hq => (h'.files q hq).trans (h.files q hq), fun q hq hq' => (h'.dirs q hq hq').trans (h.dirs q hq hq'),
    fun q hq hd => h'.grows q hq (h.grows q hq hd)⟩

theorem createDirAll_made (os : Os) : ∀ (rest : List String) (base : Path) (w w' : World Unit),
    run os (createDirAll base rest (.ret (.ok ()))) w = (w', some (.ok ())) → ∀ q, base <+: q → q <+: base ++ rest → w'.dirs q = true
  | [], base, w, w', h => by
    intro q h1 h2
    rw [List.append_nil] at h2
    have hq : q = base := h2.eq_of_length_le h1.length_le
    subst hq
    unfold createDirAll try' at h
    rw [run_op, exec_mkdir] at h
    by_cases hd : dirOk os w q = true
    · rw [if_pos hd] at h
      change ({ w with dirs := _ }, some (Except.ok ())) = _ at h
      rw [← (Prod.mk.inj h).1]
      exact if_pos rfl
    · rw [if_neg hd] at h
      simp [run] at h
  | name :: rest, base, w, w', h => by
    intro q h1 h2
    unfold createDirAll try' at h
    rw [run_op, exec_mkdir] at h
    by_cases hd : dirOk os w base = true
    · rw [if_pos hd] at h
      change run os (createDirAll (base ++ [name]) rest _) _ = _ at h
      by_cases hq : q = base
      · subst hq
        have := (createDirAll_grows os rest (q ++ [name]) { w with dirs := fun x => if x = q then true else w.dirs x }).2.2.1 q (if_pos rfl)
        rwa [h] at this
      · refine createDirAll_made os rest (base ++ [name]) _ w' h q ?_ (by simpa using h2)
        rcases List.prefix_or_prefix_of_prefix h2 (show base ++ [name] <+: base ++ name :: rest from ⟨rest, by simp⟩) with h3 | h3
        · have e1 := h1.length_le
          have e2 := h3.length_le
          rw [List.length_append, List.length_singleton] at e2
          by_cases hl : q.length = base.length
          · exact absurd (h1.eq_of_length hl.symm).symm hq
          · rw [h3.eq_of_length (by simp; omega)]
        · exact h3
    · rw [if_neg hd] at h
      simp [run] at h

theorem dropTemp_spared {E : Type} {site : Site Unit E} {dir temp : Path} (h : dir <+: temp) (w : World Unit) :
    Spared dir w (dropTemp site temp w) := by
  have key : ∀ q, ¬ dir <+: q → temp.isPrefixOf q = false := by
    intro q hq
    rw [Bool.eq_false_iff, Ne, List.isPrefixOf_iff_prefix]
    exact fun h' => hq (h.trans h')
  refine ⟨fun q hq => ?_, fun q hq _ => ?_, fun q hq hd => ?_⟩
  · unfold dropTemp; simp [key q hq]
  · unfold dropTemp; simp [key q hq]
  · unfold dropTemp; simp [key q hq, hd]

theorem runSingle_spared {E : Type} (site : Site Unit E) (path : Path) (w : World Unit) :
    Spared (site.root ++ ["tmp"]) w (runSingleEndianTest site path w).1 := by
  unfold runSingleEndianTest
  have h1 : Spared (site.root ++ ["tmp"]) w (run site.os (createDirAll [] (site.root ++ ["tmp"]) (.ret (.ok ()))) w).1 := by
    obtain ⟨g1, _, g3, g4⟩ := createDirAll_grows site.os (site.root ++ ["tmp"]) [] w
    refine ⟨fun q _ => by rw [g1], fun q _ hq => ?_, fun q _ => g3 q⟩
    rw [Bool.eq_iff_iff]
    refine ⟨fun h => (g4 q h).resolve_right hq, g3 q⟩
  split
  · next h => rw [h] at h1; exact h1
  · next h => rw [h] at h1; exact h1
  next w1 h =>
  rw [h] at h1
  have hmade := createDirAll_made site.os _ [] w w1 h
  split
  · exact h1
  next name _ =>
  dsimp only
  split
  · exact h1
  refine h1.trans (.trans ?_ (dropTemp_spared (List.prefix_append _ _) _))
  have hroot : Rooted (site.root ++ ["tmp"] ++ [name])
      { w1 with dirs := fun q => if q = site.root ++ ["tmp"] ++ [name] then true else w1.dirs q } := by
    intro q hq
    by_cases he : q = site.root ++ ["tmp"] ++ [name]
    · exact if_pos he
    · refine (if_neg he).trans (hmade q (by simp) ?_)
      rcases List.prefix_concat_iff.1 hq with h | h
      · exact absurd h he
      · exact h
  have hk := testIn_kept (site := site) (path := path) hroot
  have hb : ∀ q, ¬ (site.root ++ ["tmp"]) <+: q → ¬ (site.root ++ ["tmp"] ++ [name]) <+: q := fun q hq h => hq ((List.prefix_append _ _).trans h)
  have hne : ∀ q, ¬ (site.root ++ ["tmp"]) <+: q → q ≠ site.root ++ ["tmp"] ++ [name] := fun q hq h => hb q hq (h ▸ List.prefix_refl _)
  exact ⟨fun q hq => hk.files q (hb q hq), fun q hq _ => (hk.dirs q (hb q hq)).trans (if_neg (hne q hq)),
    fun q hq hd => hk.grows q ((if_neg (hne q hq)).trans hd)⟩

theorem testAll_spared {E : Type} (site : Site Unit E) : ∀ (files : List Path) (w : World Unit),
    Spared (site.root ++ ["tmp"]) w (testAll site files w).1
  | [], w => .refl _ _
  | path :: rest, w => by
    have h1 := runSingle_spared site path w
    unfold testAll
    split
    · next h => rw [h] at h1; exact h1
    · next h => rw [h] at h1; exact h1
    next w1 _ h =>
    rw [h] at h1
    have h2 := h1.trans (testAll_spared site rest w1)
    split <;> (next h => rw [h] at h2; exact h2)

/-- **C77** (what it leaves alone): whatever the system answers, and however the command ends, it changes nothing outside the directory `tmp` of the
workspace; the test files stay as they are. -/
theorem C77_frame {E : Type} (site : Site Unit E) (skip : Bool) (w : World Unit) :
    (∀ q, ¬ (site.root ++ ["tmp"]) <+: q → (handleDebugCommand site skip w).1.files q = w.files q) ∧
    (∀ q, ¬ (site.root ++ ["tmp"]) <+: q → ¬ q <+: (site.root ++ ["tmp"]) → (handleDebugCommand site skip w).1.dirs q = w.dirs q) ∧
    (∀ q, ¬ (site.root ++ ["tmp"]) <+: q → w.dirs q = true → (handleDebugCommand site skip w).1.dirs q = true) := by
  suffices h : Spared (site.root ++ ["tmp"]) w (handleDebugCommand site skip w).1 from ⟨h.files, h.dirs, h.grows⟩
  unfold handleDebugCommand
  split
  · exact .refl _ _
  have h1 : Spared (site.root ++ ["tmp"]) w (runAllEndianTests site w).1 := by
    unfold runAllEndianTests
    have := getTestFiles_world site w
    split
    · next h => rw [h] at this; rw [← this]; exact .refl _ _
    next w1 files h =>
    rw [h] at this
    rw [← this]
    exact testAll_spared site files w1
  split <;> (next h => rw [h] at h1; exact h1)

/-- **C77** (tools): unless the check is skipped, the command gives up before it does anything if `cargo` or `cross` cannot be started or fails; the
error names the first of them.  If both work, or if the check is skipped, nothing depends on it. -/
theorem C77_tools {E : Type} (site : Site Unit E) (w : World Unit) :
    (site.tool "cargo" = none → handleDebugCommand site false w = (w, some (.error .toolNotFound))) ∧
    (site.tool "cargo" = some false → handleDebugCommand site false w = (w, some (.error .commandFailed))) ∧
    (site.tool "cargo" = some true → site.tool "cross" = none → handleDebugCommand site false w = (w, some (.error .toolNotFound))) ∧
    (site.tool "cargo" = some true → site.tool "cross" = some false → handleDebugCommand site false w = (w, some (.error .commandFailed))) ∧
    (site.tool "cargo" = some true → site.tool "cross" = some true → handleDebugCommand site false w = handleDebugCommand site true w) ∧
    ∀ tool, handleDebugCommand { site with tool } true w = handleDebugCommand site true w := by
  refine ⟨fun h => ?_, fun h => ?_, fun h h' => ?_, fun h h' => ?_, fun h h' => ?_, fun _ => ?_⟩
  · simp [handleDebugCommand, verifyAllTools, checkToolAvailable, h]
  · simp [handleDebugCommand, verifyAllTools, checkToolAvailable, h]
  · simp [handleDebugCommand, verifyAllTools, checkToolAvailable, h, h']
  · simp [handleDebugCommand, verifyAllTools, checkToolAvailable, h, h']
  · simp [handleDebugCommand, verifyAllTools, checkToolAvailable, h, h']
  · have h2 : ∀ (path : Path) (w : World Unit) (tool : String → Option Bool),
        runSingleEndianTest { site with tool } path w = runSingleEndianTest site path w := fun _ _ _ => rfl
    have h3 : ∀ (files : List Path) (w : World Unit) (tool : String → Option Bool), testAll { site with tool } files w = testAll site files w := by
      intro files
      induction files with
      | nil => intros; rfl
      | cons p rest ih =>
        intro w tool
        unfold testAll
        rw [h2]
        split
        · rfl
        · rfl
        · rw [ih]
    unfold handleDebugCommand runAllEndianTests
    simp only [if_true, h3]
    rfl

/-- **C77** (nothing tested): if the directory of the test files is missing or cannot be read, the command reports success. -/
theorem C77_nothing_tested {E : Type} (site : Site Unit E) (w : World Unit) (hls : site.ls (site.root ++ ["assets"] ++ ["tests"]) = [])
    (hd : 1 ≤ site.depth) : handleDebugCommand site true w = (w, some (.ok ())) := by
  obtain ⟨n, hn⟩ : ∃ n, site.depth = n + 1 := ⟨site.depth - 1, by omega⟩
  simp [handleDebugCommand, runAllEndianTests, getTestFiles, hn, findAllFiles, ← List.append_assoc, hls, Cli.collectEntries, filterFiles,
    run, sortByName, testAll, reportOk]

theorem testAll_ok {E : Type} (site : Site Unit E) : ∀ (files : List Path) (w w' : World Unit) (rs : List TestResult),
    testAll site files w = (w', some (.ok rs)) →
      ∀ p ∈ files, ∃ r ∈ rs, ∃ w1 w2, Spared (site.root ++ ["tmp"]) w w1 ∧ runSingleEndianTest site p w1 = (w2, some (.ok r))
  | [], w, w', rs, h => fun p hp => nomatch hp
  | p :: rest, w, w', rs, h => by
    have hsp := runSingle_spared site p w
    unfold testAll at h
    rcases hr : runSingleEndianTest site p w with ⟨w1, _ | _ | r⟩ <;> rw [hr] at h <;> dsimp only at h
    · exact nomatch (Prod.mk.inj h).2
    · exact nomatch (Prod.mk.inj h).2
    rw [hr] at hsp
    rcases ht : testAll site rest w1 with ⟨w2, _ | _ | rs'⟩ <;> rw [ht] at h <;> dsimp only at h
    · exact nomatch (Prod.mk.inj h).2
    · exact nomatch (Prod.mk.inj h).2
    simp only [Prod.mk.injEq, Option.some.injEq, Except.ok.injEq] at h
    rw [← h.2]
    intro q hq
    rcases List.mem_cons.1 hq with rfl | hq
    · exact ⟨r, by simp, w, w1, .refl _ _, hr⟩
    · obtain ⟨r', h1, a, b, h2, h3⟩ := testAll_ok site rest w1 w2 rs' ht q hq
      exact ⟨r', List.mem_cons_of_mem _ h1, a, b, hsp.trans h2, h3⟩

theorem setFile_self {w : World Unit} {p : Path} {c : Option Buf} : (w.setFile p c).files p = c := if_pos rfl

theorem setFile_ne {w : World Unit} {p q : Path} {c : Option Buf} (h : q ≠ p) : (w.setFile p c).files q = w.files q := if_neg h

theorem copyFile_ok {E : Type} {site : Site Unit E} {src dst : Path} {w w' : World Unit} (h : copyFile site src dst w = (w', true)) :
    ∃ b, w.files src = some b ∧ w' = w.setFile dst (some b) := by
  unfold copyFile at h
  rcases hf : w.files src with _ | b <;> rw [hf] at h <;> dsimp only at h
  · exact nomatch (Prod.mk.inj h).2
  · split at h
    · split at h
      · exact ⟨b, rfl, (Prod.mk.inj h).1.symm⟩
      · exact nomatch (Prod.mk.inj h).2
    · exact nomatch (Prod.mk.inj h).2

theorem tag_ne {base a b : String} (h : a.toList ≠ b.toList) : base ++ a ≠ base ++ b := by
  intro e
  have := congrArg String.toList e
  simp only [String.toList_append, List.append_cancel_left_eq] at this
  exact h this

theorem testIn_ok {E : Type} {site : Site Unit E} {temp path : Path} {w w' : World Unit} {r : TestResult} (hr : Rooted temp w)
    (h : testIn site temp path w = (w', some (.ok r))) :
    ∃ (base : String) (w1 : World Unit) (data : Buf), Kept temp w w1 ∧ w1.files path = some data ∧
      w1.files (temp ++ [base ++ "_le"] ++ [fileName path]) = some data ∧ w1.files (temp ++ [base ++ "_be"] ++ [fileName path]) = some data ∧
      testFile site.toLab (temp ++ [base ++ "_le"] ++ [fileName path]) (temp ++ [base ++ "_be"] ++ [fileName path])
        { transformLe := temp ++ [base ++ "_transform_le"], transformBe := temp ++ [base ++ "_transform_be"],
          untransformLe := temp ++ [base ++ "_untransform_le"], untransformBe := temp ++ [base ++ "_untransform_be"] } w1 =
          (w', some (.ok r)) := by
  unfold testIn at h
  split at h
  · exact nomatch (Prod.mk.inj h).2
  next base _ =>
  dsimp only at h
  have hk := run_kept (os := site.os) (createDirs [temp ++ [base ++ "_le"], temp ++ [base ++ "_be"], temp ++ [base ++ "_transform_le"],
    temp ++ [base ++ "_transform_be"], temp ++ [base ++ "_untransform_le"], temp ++ [base ++ "_untransform_be"]]) w hr
    (confined_createDirs _ (by simp))
  split at h
  · exact nomatch (Prod.mk.inj h).2
  · exact nomatch (Prod.mk.inj h).2
  next wa ha =>
  rw [ha] at hk
  split at h
  · exact nomatch (Prod.mk.inj h).2
  next wb hb =>
  have kb := copyFile_kept (dir := temp) (site := site) (src := path) (dst := temp ++ [base ++ "_le"] ++ [fileName path]) (by simp) (w := wa)
  rw [hb] at kb
  split at h
  · exact nomatch (Prod.mk.inj h).2
  next wc hc =>
  have kc := copyFile_kept (dir := temp) (site := site) (src := path) (dst := temp ++ [base ++ "_be"] ++ [fileName path]) (by simp) (w := wb)
  rw [hc] at kc
  obtain ⟨b1, f1, e1⟩ := copyFile_ok hb
  obtain ⟨b2, f2, e2⟩ := copyFile_ok hc
  have hne : temp ++ [base ++ "_le"] ++ [fileName path] ≠ temp ++ [base ++ "_be"] ++ [fileName path] := by
    intro e
    have := List.append_inj_left' e rfl
    have := List.append_inj_right' this rfl
    exact tag_ne (by decide) (List.cons.inj this).1
  have hbb : b2 = b1 := by
    rw [e1] at f2
    by_cases hp : path = temp ++ [base ++ "_le"] ++ [fileName path]
    · rw [← hp, setFile_self] at f2; exact (Option.some.inj f2).symm
    · rw [setFile_ne hp, f1] at f2; exact (Option.some.inj f2).symm
  subst hbb
  refine ⟨base, wc, b2, (hk.trans kb).trans kc, ?_, ?_, ?_, h⟩
  · rw [e2]
    by_cases hp : path = temp ++ [base ++ "_be"] ++ [fileName path]
    · rw [← hp, setFile_self]
    · rw [setFile_ne hp]; exact f2
  · rw [e2, setFile_ne hne, e1, setFile_self]
  · rw [e2, setFile_self]

/-- **C77** (success): whatever the system answers, the command succeeds only if each test file was copied into a temporary directory, both
builds of the tool ended with status zero for it, forward and back, and both comparisons found no difference. -/
theorem C77_success {E : Type} (site : Site Unit E) (skip : Bool) (w w' : World Unit)
    (h : handleDebugCommand site skip w = (w', some (.ok ()))) :
    ∃ files, getTestFiles site w = (w, some files) ∧ ∀ path ∈ files,
      ∃ (w1 : World Unit) (dir : String → Path) (data : Buf), (∀ tag, (site.root ++ ["tmp"]) <+: dir tag) ∧
        (∀ q, ¬ (site.root ++ ["tmp"]) <+: q → w1.files q = w.files q) ∧ w1.files path = some data ∧
        w1.files (dir "_le" ++ [fileName path]) = some data ∧ w1.files (dir "_be" ++ [fileName path]) = some data ∧
        let a := runTransformCommand site.toLab false (dir "_le" ++ [fileName path]) (dir "_transform_le") w1
        let b := runTransformCommand site.toLab true (dir "_be" ++ [fileName path]) (dir "_transform_be") a.1
        let c := runUntransformCommand site.toLab false (dir "_transform_le") (dir "_untransform_le") b.1
        let e := runUntransformCommand site.toLab true (dir "_transform_be") (dir "_untransform_be") c.1
        a.2 = some true ∧ b.2 = some true ∧ c.2 = some true ∧ e.2 = some true ∧
        compareDirectories (site.diskOf b.1) b.1 site.fuel (dir "_transform_le") (dir "_transform_be") = some (.ok true) ∧
        compareDirectories (site.diskOf e.1) e.1 site.fuel (dir "_untransform_le") (dir "_untransform_be") = some (.ok true) := by
  unfold handleDebugCommand at h
  split at h
  · exact nomatch (Prod.mk.inj h).2
  rcases hall : runAllEndianTests site w with ⟨wa, _ | _ | rs⟩ <;> rw [hall] at h <;> dsimp only at h
  · exact nomatch (Prod.mk.inj h).2
  · exact nomatch (Prod.mk.inj h).2
  have hok : reportOk rs = true := by
    by_contra hn
    rw [if_neg hn] at h
    exact nomatch (Prod.mk.inj h).2
  unfold runAllEndianTests at hall
  have hwld := getTestFiles_world site w
  rcases hg : getTestFiles site w with ⟨wg, _ | files⟩ <;> rw [hg] at hall hwld <;> dsimp only at hall hwld
  · exact nomatch (Prod.mk.inj hall).2
  subst hwld
  refine ⟨files, rfl, fun path hp => ?_⟩
  obtain ⟨r, hr, w1, w2, hsp, hrun⟩ := testAll_ok site files _ _ _ hall path hp
  have hsucc := (C70_verdict rs).1.1 hok r hr
  unfold runSingleEndianTest at hrun
  have h1 : Spared (site.root ++ ["tmp"]) w1 (run site.os (createDirAll [] (site.root ++ ["tmp"]) (.ret (.ok ()))) w1).1 := by
    obtain ⟨g1, _, g3, g4⟩ := createDirAll_grows site.os (site.root ++ ["tmp"]) [] w1
    refine ⟨fun q _ => by rw [g1], fun q _ hq => ?_, fun q _ => g3 q⟩
    rw [Bool.eq_iff_iff]
    exact ⟨fun h => (g4 q h).resolve_right hq, g3 q⟩
  split at hrun
  · exact nomatch (Prod.mk.inj hrun).2
  · exact nomatch (Prod.mk.inj hrun).2
  next wd hd =>
  rw [hd] at h1
  have hmade := createDirAll_made site.os _ [] w1 wd hd
  split at hrun
  · exact nomatch (Prod.mk.inj hrun).2
  next name _ =>
  dsimp only at hrun
  split at hrun
  · exact nomatch (Prod.mk.inj hrun).2
  have hroot : Rooted (site.root ++ ["tmp"] ++ [name])
      { wd with dirs := fun q => if q = site.root ++ ["tmp"] ++ [name] then true else wd.dirs q } := by
    intro q hq
    by_cases he : q = site.root ++ ["tmp"] ++ [name]
    · exact if_pos he
    · refine (if_neg he).trans (hmade q (by simp) ?_)
      rcases List.prefix_concat_iff.1 hq with h | h
      · exact absurd h he
      · exact h
  have hin := (Prod.mk.inj hrun).2
  rcases ht : testIn site (site.root ++ ["tmp"] ++ [name]) path
      { wd with dirs := fun q => if q = site.root ++ ["tmp"] ++ [name] then true else wd.dirs q } with ⟨we, re⟩
  rw [ht] at hin
  dsimp only at hin
  subst hin
  obtain ⟨base, w3, data, hk, f1, f2, f3, htf⟩ := testIn_ok hroot ht
  obtain ⟨c1, _, c3, _, c5⟩ := C70_result site.toLab _ _ _ _ _ _ htf
  refine ⟨w3, fun tag => site.root ++ ["tmp"] ++ [name] ++ [base ++ tag], data, fun tag => ?_, fun q hq => ?_, f1, f2, f3, ?_⟩
  · exact ⟨[name] ++ [base ++ tag], by simp⟩
  · rw [hk.files q fun h => hq ((List.prefix_append _ _).trans h)]
    exact (h1.files q hq).trans (hsp.files q hq)
  · exact ⟨(c1.1 hsucc.1).1, (c1.1 hsucc.1).2, ((c3 hsucc.1).1.1 hsucc.2.1).1, ((c3 hsucc.1).1.1 hsucc.2.1).2,
      ((c5 hsucc.2.1).2.1 hsucc.2.2).1, ((c5 hsucc.2.1).2.1 hsucc.2.2).2⟩

end Dlt.Props
