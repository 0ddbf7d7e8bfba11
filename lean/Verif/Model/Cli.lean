import Verif.Model.FileIo
import Verif.Model.Dds
/-!
# Batch processing in the command line tool

Models `/repo/src/tools/dxt-lossless-transform-cli/src/util` and `src/commands/{transform,untransform}/mod.rs`: the search
for files, the work on one file, and the execution of the work on all files by several threads.

Simplifications.  Messages on the console are left out.  Estimators and handlers have no state (`Unit`), which is so for the
ones the tool uses.  The scheduler (`rayon`) is any interleaving of the system calls of the files' programs; a panic ends
the program of one file (`rayon` passes it on to the caller when the others are done or dropped).
-/

namespace Dlt.Cli

open Dlt.FileFormats Dlt.FileIo Dlt.FileIo.Prog

/-- What `std::fs::read_dir` and its iterator yield: the names that can be read, nothing if the directory cannot be read. -/
abbrev Listing := Path → List String

/-- The loop over the entries of a directory, util/core.rs:26-39; `visit` is the recursive call. -/
def collectEntries (isDir : Path → Bool) (visit : Path → Option (List Path)) (dir : Path) : List String → Option (List Path)
  | [] => some []
  | name :: names =>
    if isDir (dir ++ [name]) then do
      let a ← visit (dir ++ [name])
      let b ← collectEntries isDir visit dir names
      pure (a ++ b)
    else do
      let b ← collectEntries isDir visit dir names
      pure ((dir ++ [name]) :: b)

/-- `find_all_files`, util/core.rs:19-41: paths of the entries that are not directories.  `none` if directories are nested
deeper than `fuel` (links could form a circle). -/
def findAllFiles (ls : Listing) (isDir : Path → Bool) : (fuel : Nat) → (dir : Path) → Option (List Path)
  | 0, _ => none
  | fuel + 1, dir => collectEntries isDir (findAllFiles ls isDir fuel) dir (ls dir)

/-- `all_handlers`, util/handlers.rs:8-10. -/
def allHandlers {σ E : Type} (p : Dds.Platform) (dbg : E → String) : List (Handler σ E) := [Dds.handler p dbg]

/-- `std::fs::create_dir_all`: makes the directories on the way to `base ++ rest`, from `base` on, shortest first.  (The standard
library tries the longest first and goes back if its parent does not exist; the outcome is the same.) -/
def createDirAll {σ α : Type} (base : Path) : (rest : List String) → Prog σ (Except FileError α) → Prog σ (Except FileError α)
  | [], k => try' (.mkdir base) fun _ => k
  | name :: rest, k => try' (.mkdir base) fun _ => createDirAll (base ++ [name]) rest k

/-- `Path::strip_prefix` -/
def stripPrefix : (path dir : Path) → Option Path
  | path, [] => some path
  | [], _ :: _ => none
  | a :: path, b :: dir => if a = b then stripPrefix path dir else none

/-- The common part of `process_file_transform` (commands/transform/mod.rs:202-238) and `process_file_untransform`
(commands/untransform/mod.rs:105-131); `convert` is the call of the file API. -/
def processFile {σ E : Type} (convert : Path → Path → Prog σ (Except FileError (Handler σ E)))
    (inputDir outputDir path : Path) : Prog σ (Except FileError Nat) :=
  match stripPrefix path inputDir with
  | none => .panic
  | some relative =>
    let target := outputDir ++ relative
    let work : Prog σ (Except FileError Nat) :=
      .op (.fileLen path) fun len =>
      (convert path target).bind fun r => .ret (r.map fun _ => len.getD 0)
    if target = [] then work else createDirAll [] target.dropLast work

/-- `process_file_transform`, commands/transform/mod.rs:202-238. -/
def processFileTransform {σ E : Type} (os : Os) (hs : List (Handler σ E)) (bundle : Bundle σ E)
    (inputDir outputDir path : Path) : Prog σ (Except FileError Nat) :=
  processFile (fun i o => transformFileWithMultipleHandlers os hs i o bundle) inputDir outputDir path

/-- `process_file_untransform`, commands/untransform/mod.rs:105-131. -/
def processFileUntransform {σ E : Type} (os : Os) (hs : List (Handler σ E))
    (inputDir outputDir path : Path) : Prog σ (Except FileError Nat) :=
  processFile (fun i o => untransformFileWithMultipleHandlers os hs i o) inputDir outputDir path

/-- The closure of `for_each`, commands/transform/mod.rs:175-182, commands/untransform/mod.rs:79-86. -/
def job {σ : Type} (x : Prog σ (Except FileError Nat)) : Prog σ (Except FileError Nat) :=
  x.bind fun r =>
    match r with
    | .ok n => .op (.add n) fun _ => .ret (.ok n)
    | .error e => .ret (.error e)

/-! ## Threads -/

/-- The world and what is left to do in each program. -/
structure Config (ι σ α : Type) where
  world : World σ
  progs : ι → Prog σ α

/-- What is left after a system call with that answer; a panic if there is none. -/
def resume {σ α β : Type} (k : β → Prog σ α) : Option β → Prog σ α
  | none => .panic
  | some b => k b

/-- One of the programs makes its next system call. -/
inductive Step {ι σ α : Type} [DecidableEq ι] (os : Os) : Config ι σ α → Config ι σ α → Prop where
  | call {c : Config ι σ α} (i : ι) {β : Type} (s : Sys σ β) (k : β → Prog σ α) (h : c.progs i = .op s k) :
      Step os c ⟨(exec os s c.world).1, fun j => if j = i then resume k (exec os s c.world).2 else c.progs j⟩

/-- Any number of steps. -/
inductive Steps {ι σ α : Type} [DecidableEq ι] (os : Os) : Config ι σ α → Config ι σ α → Prop where
  | refl (c : Config ι σ α) : Steps os c c
  | tail {a b c : Config ι σ α} : Steps os a b → Step os b c → Steps os a c

/-- The result of a program that has ended, `none` for a panic. -/
def ended {σ α : Type} : Prog σ α → Option (Option α)
  | .ret a => some (some a)
  | .panic => some none
  | .op _ _ => none

/-- The loop of the build without threads, commands/transform/mod.rs:188-197, commands/untransform/mod.rs:92-101: one program
after the other in the order given; a panic ends it. -/
def runSeq {ι σ α : Type} (os : Os) (progs : ι → Prog σ α) : List ι → World σ → World σ × Option (List α)
  | [], w => (w, some [])
  | i :: is, w =>
    match run os (progs i) w with
    | (w, none) => (w, none)
    | (w, some a) =>
      match runSeq os progs is w with
      | (w, none) => (w, none)
      | (w, some as) => (w, some (a :: as))

end Dlt.Cli
