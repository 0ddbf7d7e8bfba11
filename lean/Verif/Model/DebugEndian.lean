import Verif.Model.DebugIo
import Verif.Model.FileCompare
import Verif.Model.Commands
/-!
# The endianness test of the debug commands

Models `/repo/src/tools/dxt-lossless-transform-cli/src/commands/debug_endian`: transform_command.rs, the part of endian_test.rs
that tests one file, and the verdict of mod.rs.

Simplifications.  The same as in `Model/FileIo.lean` and `Model/Commands.lean`.  Starting the tool by `cross run` is running its program on the
other machine in the same file system; the exit status is success exactly if the program returns `Ok` (a panic is a failure).  That `cross`
can be started and comes to run the tool is a parameter.  Messages on the console are left out.  The rest of the command is in
`Model/EndianCommand.lean`.
-/

namespace Dlt.DebugEndian

open Dlt.Embed (TransformFormat)
open Dlt.FileFormats Dlt.FileIo Dlt.FileIo.Prog Dlt.Cli Dlt.FileCompare

/-- The errors of `handle_transform_single_file` and `handle_untransform_single_file` (`Box<dyn Error>`). -/
inductive CmdError where
  | file (e : FileError)
  | invalidPath
  | readDir
  | notDetected
  | notImplemented (f : TransformFormat)
  | allFailed
  deriving DecidableEq, Repr

/-- The operator `?` on a call of the file API. -/
def orFail {σ α β : Type} (x : Prog σ (Except FileError α)) (k : α → Prog σ (Except CmdError β)) : Prog σ (Except CmdError β) :=
  x.bind fun r =>
    match r with
    | .error e => .ret (.error (.file e))
    | .ok a => k a

/-- The combinations in the order of the loops of `test_all_combinations`, transform_command.rs:66-76. -/
def combinations : List (ApiVariant × Bool) :=
  [.none, .variant1, .variant2, .variant3].flatMap fun v => [false, true].map fun split => (v, split)

/-- The loops of `test_all_combinations`, transform_command.rs:74-98. -/
def testAllCombinations {σ E : Type} (os : Os) (hs : List (Handler σ E)) (inp out : Path)
    (build : ApiVariant → Bool → Bundle σ E) : List (ApiVariant × Bool) → Prog σ (Except CmdError Unit)
  | [] => .ret (.error .allFailed)
  | (v, split) :: rest =>
    (transformFileWithMultipleHandlers os hs inp out (build v split)).bind fun r =>
    match r with
    | .ok _ => .ret (.ok ())
    | .error _ => testAllCombinations os hs inp out build rest

/-- The closure of `test_all_bc1_combinations`, transform_command.rs:103-108. -/
def bc1Bundle {σ E : Type} (v : ApiVariant) (split : Bool) : Bundle σ E :=
  Bundle.new.withBc1Manual ((Bc1.ManualBuilder.new.decorrelationMode v).splitColourEndpoints split)

/-- The closure of `test_all_bc2_combinations`, transform_command.rs:113-118. -/
def bc2Bundle {σ E : Type} (v : ApiVariant) (split : Bool) : Bundle σ E :=
  Bundle.new.withBc2Manual ((Bc2.ManualBuilder.new.decorrelationMode v).splitColourEndpoints split)

/-- `handle_transform_single_file`, transform_command.rs:12-54. -/
def transformSingleFile {σ E : Type} (os : Os) (pl : Dds.Platform) (dbg : E → String) (inp outDir : Path) :
    Prog σ (Except CmdError Unit) :=
  orFail (createDirAll [] outDir (.ret (.ok ()))) fun _ =>
  match inp.getLast? with
  | none => .ret (.error .invalidPath)
  | some name =>
    orFail (DebugIo.getTransformFormat os inp (DebugIo.allHandlers pl) .all) fun format =>
    match format with
    | none => .ret (.error .notDetected)
    | some .bc1 => testAllCombinations os (Cli.allHandlers pl dbg) inp (outDir ++ [name]) bc1Bundle combinations
    | some .bc2 => testAllCombinations os (Cli.allHandlers pl dbg) inp (outDir ++ [name]) bc2Bundle combinations
    | some f => .ret (.error (.notImplemented f))

/-- The loop of `handle_untransform_single_file`, transform_command.rs:130-150; `is_file` is asked by its size. -/
def untransformLoop {σ E : Type} (os : Os) (hs : List (Handler σ E)) (inpDir outDir : Path) :
    List String → Prog σ (Except CmdError Unit)
  | [] => .ret (.ok ())
  | name :: names =>
    .op (.fileLen (inpDir ++ [name])) fun len =>
    if len.isSome then
      orFail (untransformFileWithMultipleHandlers os hs (inpDir ++ [name]) (outDir ++ [name])) fun _ =>
      untransformLoop os hs inpDir outDir names
    else untransformLoop os hs inpDir outDir names

/-- `handle_untransform_single_file`, transform_command.rs:122-151; `names` is what `read_dir` yields. -/
def untransformSingleFile {σ E : Type} (os : Os) (pl : Dds.Platform) (dbg : E → String) (names : Option (List String))
    (inpDir outDir : Path) : Prog σ (Except CmdError Unit) :=
  orFail (createDirAll [] outDir (.ret (.ok ()))) fun _ =>
  match names with
  | none => .ret (.error .readDir)
  | some names => untransformLoop os (Cli.allHandlers pl dbg) inpDir outDir names

/-- `EndianTestResult`, endian_test.rs:27-33, without the name. -/
structure TestResult where
  transformSuccess : Bool
  untransformSuccess : Bool
  filesIdentical : Bool
  deriving DecidableEq, Repr

/-- `is_success`, endian_test.rs:36-38. -/
def TestResult.isSuccess (r : TestResult) : Bool := r.transformSuccess && r.untransformSuccess && r.filesIdentical

/-- The exit status of a run of the tool. -/
def succeeded {σ α ε : Type} : World σ × Option (Except ε α) → Bool
  | (_, some (.ok _)) => true
  | _ => false

/-- The system and the two machines of the test. -/
structure Lab (σ E : Type) where
  os : Os
  sight : Sight
  /-- The answers of the system for reading directories and files in a given state. -/
  diskOf : World σ → Disk
  /-- A bound for the depth of directories. -/
  fuel : Nat
  /-- `LITTLE_ENDIAN_TARGET`, endian_test.rs:43 -/
  le : Dds.Platform
  /-- `BIG_ENDIAN_TARGET`, endian_test.rs:44 -/
  be : Dds.Platform
  dbg : E → String
  /-- `cross run` for one of the targets (`true`: big endian) with these arguments: `none` if `cross` cannot be started, `some false` if it
  fails before the tool runs. -/
  cross : Bool → Path → Path → Option Bool

/-- The process of the tool with the options `--input` and `--output` (mod.rs:25-51): does it end with status zero? -/
def toolProcess {σ : Type} (os : Os) (sight : Sight) (handler : World σ → Path → Path → Prog σ (Except CmdError Unit))
    (inp out : Path) (w : World σ) : World σ × Bool :=
  match parsePaths os sight true inp out w with
  | (w, .error _) => (w, false)
  | (w, .ok (i, o)) =>
    let r := run os (handler w i o) w
    (r.1, succeeded r)

/-- The common part of `run_transform_command` and `run_untransform_command`, endian_test.rs:235-261, 277-303; `none` is an error. -/
def crossRun {σ E : Type} (lab : Lab σ E) (big : Bool) (handler : World σ → Path → Path → Prog σ (Except CmdError Unit))
    (inp out : Path) (w : World σ) : World σ × Option Bool :=
  match lab.cross big inp out with
  | none => (w, none)
  | some false => (w, some false)
  | some true =>
    let r := toolProcess lab.os lab.sight handler inp out w
    (r.1, some r.2)

/-- `run_transform_command`, endian_test.rs:223-262. -/
def runTransformCommand {σ E : Type} (lab : Lab σ E) (big : Bool) : Path → Path → World σ → World σ × Option Bool :=
  crossRun lab big fun _ i o => transformSingleFile lab.os (if big then lab.be else lab.le) lab.dbg i o

/-- `run_untransform_command`, endian_test.rs:265-304.  The output directory exists, so that it makes no difference when the input directory is
read. -/
def runUntransformCommand {σ E : Type} (lab : Lab σ E) (big : Bool) : Path → Path → World σ → World σ × Option Bool :=
  crossRun lab big fun w i o =>
    untransformSingleFile lab.os (if big then lab.be else lab.le) lab.dbg ((lab.diskOf w).list i) i o

/-- The directories of the test, endian_test.rs:145-150, without the two inputs. -/
structure Dirs where
  transformLe : Path
  transformBe : Path
  untransformLe : Path
  untransformBe : Path

/-- `run_single_endian_test` from line 172 on, endian_test.rs:134-220: the copies `inpLe` and `inpBe` of the file have been made.  `none`: not
enough fuel.  The order is that of the source: both transforms, the comparison of their results, both inverse transforms, the comparison. -/
def testFile {σ E : Type} (lab : Lab σ E) (inpLe inpBe : Path) (d : Dirs) (w : World σ) : World σ × Option (Except Unit TestResult) :=
  match runTransformCommand lab false inpLe d.transformLe w with
  | (w, none) => (w, some (.error ()))
  | (w, some transformLe) =>
    match runTransformCommand lab true inpBe d.transformBe w with
    | (w, none) => (w, some (.error ()))
    | (w, some transformBe) =>
      if transformLe && transformBe then
        match compareDirectories (lab.diskOf w) w lab.fuel d.transformLe d.transformBe with
        | none => (w, none)
        | some (.error e) => (w, some (.error e))
        | some (.ok transformed) =>
          match runUntransformCommand lab false d.transformLe d.untransformLe w with
          | (w, none) => (w, some (.error ()))
          | (w, some untransformLe) =>
            match runUntransformCommand lab true d.transformBe d.untransformBe w with
            | (w, none) => (w, some (.error ()))
            | (w, some untransformBe) =>
              if untransformLe && untransformBe then
                match compareDirectories (lab.diskOf w) w lab.fuel d.untransformLe d.untransformBe with
                | none => (w, none)
                | some (.error e) => (w, some (.error e))
                | some (.ok untransformed) => (w, some (.ok ⟨true, true, transformed && untransformed⟩))
              else (w, some (.ok ⟨true, false, transformed && false⟩))
      else (w, some (.ok ⟨false, false, false && false⟩))

/-- `report_results`, mod.rs:87-124: does the command succeed? -/
def reportOk (results : List TestResult) : Bool :=
  (results.filter TestResult.isSuccess).length = results.length

end Dlt.DebugEndian
