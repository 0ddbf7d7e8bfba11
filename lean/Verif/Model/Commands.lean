import Verif.Model.Presets
/-!
# The commands `transform` and `untransform` from their arguments to the exit status

Models of `/repo/src/tools/dxt-lossless-transform-cli/src` the function `canonicalize_cli_path` (util/core.rs), the options and handlers
of `commands/transform/mod.rs` and `commands/untransform/mod.rs`, and `main.rs`.

Simplifications.  The arguments are paths from the root: the current directory is known, and there are no links (see `Model/FileIo.lean`), so that
`fs::canonicalize` gives the path back.  `argh` (not part of the repository) calls the function of an option when it meets it, from left to right, and
ends the process with status 1 if it fails; both options are given once.  The rest as in `Model/Cli.lean`.
-/

namespace Dlt.Cli

open Dlt.FileFormats Dlt.FileIo Dlt.FileIo.Prog

/-- The answers of the system for paths that exist. -/
structure Sight where
  /-- `Path::exists`: the metadata can be read. -/
  sees : Path → Bool
  /-- `fs::canonicalize` succeeds. -/
  resolves : Path → Bool

/-- There is a file or a directory. -/
def isThere {σ : Type} (w : World σ) (path : Path) : Bool := (w.files path).isSome || w.dirs path

/-- `canonicalize_cli_path`, util/core.rs:59-69; the texts are without the reason. -/
def canonicalizeCliPath {σ : Type} (os : Os) (sight : Sight) (path : Path) (w : World σ) : World σ × Except String Path :=
  let rest := fun w : World σ => if isThere w path && sight.resolves path then .ok path else .error "Invalid path"
  if isThere w path && sight.sees path then (w, rest w)
  else
    match run os (createDirAll [] path (.ret (.ok ()))) w with
    | (w, some (.ok ())) => (w, rest w)
    | (w, _) => (w, .error "Failed to create directory")

/-- The options `--input` and `--output`, commands/transform/mod.rs:17-23, commands/untransform/mod.rs:15-21, in one order or the other. -/
def parsePaths {σ : Type} (os : Os) (sight : Sight) (inputFirst : Bool) (input output : Path) (w : World σ) :
    World σ × Except String (Path × Path) :=
  match canonicalizeCliPath os sight (if inputFirst then input else output) w with
  | (w, .error e) => (w, .error e)
  | (w, .ok a) =>
    match canonicalizeCliPath os sight (if inputFirst then output else input) w with
    | (w, .error e) => (w, .error e)
    | (w, .ok b) => (w, .ok (if inputFirst then (a, b) else (b, a)))

/-- `handle_untransform_command`, commands/untransform/mod.rs:24-58, with `process_files_untransform`, commands/untransform/mod.rs:60-103; see
`handleTransform`. -/
def handleUntransform (os : Os) (p : Dds.Platform) (dbg : Nat → String) (ls : Listing) (isDir : Path → Bool)
    (fuel : Nat) (input output : Path) : Option (Except Unit Work) :=
  match findAllFiles ls isDir fuel input with
  | none => none
  | some [] => some (.ok ⟨[], fun _ => .panic⟩)
  | some entries => some (.ok ⟨entries, fun e => job (processFileUntransform os (allHandlers (E := Nat) p dbg) input output e)⟩)

/-- The commands of `main.rs` that are modelled here, with the options other than paths. -/
inductive Command where
  | transform (preset : Preset)
  | untransform

/-- The handler of a command, main.rs:46-51. -/
def handle (lib : DebugStats.Lib) (os : Os) (p : Dds.Platform) (dbg : Nat → String) (ls : Listing) (isDir : Path → Bool)
    (fuel : Nat) (input output : Path) : Command → Option (Except Unit Work)
  | .transform preset => handleTransform lib os p dbg ls isDir fuel input output preset
  | .untransform => handleUntransform os p dbg ls isDir fuel input output

/-- How the process ends. -/
inductive Exit where
  /-- status 0: `main` returns `Ok` -/
  | success
  /-- status 1: `argh` rejects an argument -/
  | argument
  /-- status 1: `main` returns an error -/
  | failure
  /-- a thread has panicked -/
  | panic
  deriving DecidableEq, Repr

/-- A process: the arguments are read, `ls` is what the system lists then, the work of all files is done under some
schedule; the byte counter starts at zero (commands/transform/mod.rs:171, commands/untransform/mod.rs:75).  The state before and after
and how it ends; `main`, main.rs:43-87. -/
inductive Process (lib : DebugStats.Lib) (os : Os) (sight : Sight) (p : Dds.Platform) (dbg : Nat → String) (ls : Listing)
    (inputFirst : Bool) (input output : Path) (cmd : Command) (w : World Unit) : World Unit → Exit → Prop where
  | argument (w' : World Unit) (e : String) (h : parsePaths os sight inputFirst input output w = (w', .error e)) :
      Process lib os sight p dbg ls inputFirst input output cmd w w' .argument
  | failure (w' : World Unit) (i o : Path) (fuel : Nat) (h : parsePaths os sight inputFirst input output w = (w', .ok (i, o)))
      (hw : handle lib os p dbg ls w'.dirs fuel i o cmd = some (.error ())) :
      Process lib os sight p dbg ls inputFirst input output cmd w w' .failure
  | success (w' : World Unit) (i o : Path) (fuel : Nat) (work : Work) (c : Config (Fin work.entries.length) Unit (Except FileError Nat))
      (h : parsePaths os sight inputFirst input output w = (w', .ok (i, o)))
      (hw : handle lib os p dbg ls w'.dirs fuel i o cmd = some (.ok work))
      (hs : Steps os ⟨{ w' with counter := 0 }, fun i => work.job work.entries[i]⟩ c)
      (he : ∀ i, ∃ r, ended (c.progs i) = some (some r)) :
      Process lib os sight p dbg ls inputFirst input output cmd w c.world .success
  | panic (w' : World Unit) (i o : Path) (fuel : Nat) (work : Work) (c : Config (Fin work.entries.length) Unit (Except FileError Nat))
      (h : parsePaths os sight inputFirst input output w = (w', .ok (i, o)))
      (hw : handle lib os p dbg ls w'.dirs fuel i o cmd = some (.ok work))
      (hs : Steps os ⟨{ w' with counter := 0 }, fun i => work.job work.entries[i]⟩ c)
      (he : ∃ i, ended (c.progs i) = some none) :
      Process lib os sight p dbg ls inputFirst input output cmd w c.world .panic

end Dlt.Cli
