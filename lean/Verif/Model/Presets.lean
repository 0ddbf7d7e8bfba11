import Verif.Model.Cli
import Verif.Model.DebugStats
/-!
# The presets of the command line tool

Models `/repo/src/tools/dxt-lossless-transform-cli/src/commands/transform/mod.rs` up to the work on one file, which is in
`Verif/Model/Cli.lean`.

Simplifications.  `lower` stands for `str::to_lowercase`; messages, the measurement of time and the parsing of the other arguments by
`argh` are left out.  Errors of estimators are numbers, as those of zstd are; the other two estimators have none.
-/

namespace Dlt.Cli

open Dlt.FileFormats Dlt.FileIo Dlt.FileIo.Prog

/-- `CompressionPreset`, commands/transform/mod.rs:30-41. -/
inductive Preset where
  | low | medium | optimal | max
  deriving DecidableEq, Repr

/-- The value if the option is not given, commands/transform/mod.rs:26. -/
def Preset.default : Preset := .optimal

/-- `CompressionPreset::from_str`, commands/transform/mod.rs:43-57. -/
def Preset.fromStr (lower : String → String) (s : String) : Option Preset :=
  let t := lower s
  if t = "low" then some .low
  else if t = "medium" then some .medium
  else if t = "optimal" then some .optimal
  else if t = "max" then some .max
  else none

/-- `create_low_preset_bundle`, commands/transform/mod.rs:112-118. -/
def lowBundle : Bundle Unit Nat := Bundle.new.withBc1Manual .new

/-- `create_medium_preset_bundle`, commands/transform/mod.rs:120-128. -/
def mediumBundle (lib : DebugStats.Lib) : Bundle Unit Nat := Bundle.new.withBc1Auto (.new (CApi.ltu lib.lz))

/-- `create_optimal_preset_bundle`, commands/transform/mod.rs:130-139; `none` is the error for a wrong level. -/
def optimalBundle (lib : DebugStats.Lib) : Option (Bundle Unit Nat) := do
  let level ← DebugStats.zstdNew 1
  pure (Bundle.new.withBc1Auto (.new (DebugStats.zstd lib.bound lib.compress level)))

/-- `create_max_preset_bundle`, commands/transform/mod.rs:141-151. -/
def maxBundle (lib : DebugStats.Lib) : Option (Bundle Unit Nat) := do
  let level ← DebugStats.zstdNew 1
  pure (Bundle.new.withBc1Auto (.newUltra (DebugStats.zstd lib.bound lib.compress level)))

/-- The match on the preset, commands/transform/mod.rs:76-93. -/
def presetBundle (lib : DebugStats.Lib) : Preset → Option (Bundle Unit Nat)
  | .low => some lowBundle
  | .medium => some (mediumBundle lib)
  | .optimal => optimalBundle lib
  | .max => maxBundle lib

/-- The files found and the work for each of them. -/
structure Work where
  entries : List Path
  job : Path → Prog Unit (Except FileError Nat)

/-- `handle_transform_command`, commands/transform/mod.rs:59-110, with `process_files_with_bundle`, commands/transform/mod.rs:153-199:
the files found and the work that is started for them; `.error` if no bundle can be made, `none` if the search does not end. -/
def handleTransform (lib : DebugStats.Lib) (os : Os) (p : Dds.Platform) (dbg : Nat → String) (ls : Listing) (isDir : Path → Bool)
    (fuel : Nat) (input output : Path) (preset : Preset) : Option (Except Unit Work) :=
  match findAllFiles ls isDir fuel input with
  | none => none
  | some [] => some (.ok ⟨[], fun _ => .panic⟩)
  | some entries =>
    match presetBundle lib preset with
    | none => some (.error ())
    | some bundle => some (.ok ⟨entries, fun e => job (processFileTransform os (allHandlers p dbg) bundle input output e)⟩)

end Dlt.Cli
