import Verif.Model.DebugEndian
/-!
# The command `debug-endian`

Models the rest of `/repo/src/tools/dxt-lossless-transform-cli/src/commands/debug_endian`: mod.rs, tool_check.rs, the search for test files and
the temporary directories in endian_test.rs, and the names in file_compare.rs.

Simplifications.  As in `Model/DebugEndian.lean`.  The crate `tempfile` (not part of the repository) makes a new directory with a name of its own
choice and removes it with all that is in it when the value is dropped.  The errors carry only the variant.  A file name is valid UTF-8, so that
the order of `OsString` is that of code points.
-/

namespace Dlt.DebugEndian

open Dlt.Embed (TransformFormat)
open Dlt.FileFormats Dlt.FileIo Dlt.FileIo.Prog Dlt.Cli Dlt.FileCompare

/-- `EndianTestError`, endian_test.rs:12-24. -/
inductive EndianError where
  | toolNotFound
  | commandFailed
  | testsFailed
  | io
  deriving DecidableEq, Repr

/-- The workspace, the machine that runs the command, and the system's answers to the calls that only the command makes. -/
structure Site (σ E : Type) extends Lab σ E where
  /-- The directory two levels above the manifest, `endian_test.rs:71-74`. -/
  root : Path
  /-- The build of the tool that runs the command. -/
  host : Dds.Platform
  /-- `read_dir` while test files are searched for. -/
  ls : Listing
  /-- A bound for the depth of directories there. -/
  depth : Nat
  /-- `tool --version`: `none` if it cannot be started, else whether its status is zero. -/
  tool : String → Option Bool
  /-- The name that `TempDir::new_in` takes; `none` if it fails. -/
  tempName : World σ → Option String
  /-- `SystemTime::now` in nanoseconds since 1970; `none` before that. -/
  nanos : World σ → Option Nat
  /-- The same a moment later. -/
  nanosLater : World σ → Option Nat
  /-- `std::process::id` -/
  pid : Nat
  /-- The number in the debug representation of the thread's id, or zero. -/
  threadNum : BitVec 32
  /-- `fs::copy` succeeds. -/
  copies : Path → Path → Bool
  /-- What `fs::copy` leaves at the destination if it fails, from what was there. -/
  leaves : Path → Path → Option Buf → Option Buf
  /-- What cannot be removed. -/
  stays : Path → Bool

/-- `is_supported_format`, endian_test.rs:48-66. -/
def isSupportedFormat {σ : Type} (os : Os) (pl : Dds.Platform) (path : Path) : Prog σ (Except EndianError Bool) :=
  (DebugIo.getTransformFormat os path (DebugIo.allHandlers pl) .all).bind fun r =>
  .ret (match r with
    | .ok (some .bc1) => .ok true
    | .ok (some .bc2) => .ok true
    | .ok (some _) => .ok false
    | .ok none => .ok false
    | .error _ => .error .io)

/-- The closure of `get_test_files`, endian_test.rs:83-97. -/
def isTestFile {σ : Type} (os : Os) (pl : Dds.Platform) (path : Path) : Prog σ Bool :=
  match path.getLast? with
  | some name =>
    if !(".dds".toList.isSuffixOf (os.lower name).toList) then .ret false
    else (isSupportedFormat os pl path).bind fun r => .ret (match r with | .ok yes => yes | .error _ => false)
  | none => .ret false

/-- `filter` and `collect`, endian_test.rs:81-98. -/
def filterFiles {σ : Type} (os : Os) (pl : Dds.Platform) : List Path → Prog σ (List Path)
  | [] => .ret []
  | path :: rest =>
    (isTestFile os pl path).bind fun yes =>
    (filterFiles os pl rest).bind fun others =>
    .ret (if yes then path :: others else others)

/-- `DirEntry::file_name`; an entry has one. -/
def fileName (path : Path) : String := path.getLast?.getD ""

/-- Inserting before the first element with a name that is not smaller. -/
def insertByName (path : Path) : List Path → List Path
  | [] => [path]
  | other :: rest => if fileName other < fileName path then other :: insertByName path rest else path :: other :: rest

/-- `sort_by_key`, endian_test.rs:101, which is stable. -/
def sortByName : List Path → List Path
  | [] => []
  | path :: rest => insertByName path (sortByName rest)

/-- `get_test_files`, endian_test.rs:69-103; `none`: a panic, or not enough depth. -/
def getTestFiles {σ E : Type} (site : Site σ E) (w : World σ) : World σ × Option (List Path) :=
  match findAllFiles site.ls w.dirs site.depth (site.root ++ ["assets"] ++ ["tests"]) with
  | none => (w, none)
  | some entries =>
    match run site.os (filterFiles site.os site.host entries) w with
    | (w, none) => (w, none)
    | (w, some files) => (w, some (sortByName files))

/-- `rand_suffix`, file_compare.rs:21-37; `none` is a panic. -/
def randSuffix (nanos : Option Nat) (threadNum : BitVec 32) : Option (BitVec 32) :=
  nanos.map fun n => BitVec.ofNat 32 (n % 1000000000) + threadNum

/-- `generate_random_dir_name`, file_compare.rs:8-19; `none` is a panic. -/
def generateRandomDirName (pre : String) (nanos nanosLater : Option Nat) (pid : Nat) (threadNum : BitVec 32) : Option String :=
  match nanos, randSuffix nanosLater threadNum with
  | some timestamp, some suffix => some (pre ++ "_" ++ toString timestamp ++ "_" ++ toString pid ++ "_" ++ toString suffix.toNat)
  | _, _ => none

/-- `fs::copy`. -/
def copyFile {σ E : Type} (site : Site σ E) (src dst : Path) (w : World σ) : World σ × Bool :=
  match w.files src with
  | none => (w, false)
  | some b =>
    if w.dirs dst.dropLast && !w.dirs dst then
      if site.copies src dst then (w.setFile dst (some b), true) else (w.setFile dst (site.leaves src dst (w.files dst)), false)
    else (w, false)

/-- The loop that makes the directories, endian_test.rs:153-163. -/
def createDirs {σ : Type} : List Path → Prog σ (Except FileError Unit)
  | [] => .ret (.ok ())
  | dir :: rest => createDirAll [] dir (createDirs rest)

/-- The part of `run_single_endian_test` that works in the temporary directory `temp`, endian_test.rs:144-220. -/
def testIn {σ E : Type} (site : Site σ E) (temp path : Path) (w : World σ) : World σ × Option (Except Unit TestResult) :=
  match generateRandomDirName "endian_test" (site.nanos w) (site.nanosLater w) site.pid site.threadNum with
  | none => (w, none)
  | some baseName =>
    let littleEndian := temp ++ [baseName ++ "_le"]
    let bigEndian := temp ++ [baseName ++ "_be"]
    let d : Dirs :=
      { transformLe := temp ++ [baseName ++ "_transform_le"], transformBe := temp ++ [baseName ++ "_transform_be"],
        untransformLe := temp ++ [baseName ++ "_untransform_le"], untransformBe := temp ++ [baseName ++ "_untransform_be"] }
    match run site.os (createDirs [littleEndian, bigEndian, d.transformLe, d.transformBe, d.untransformLe, d.untransformBe]) w with
    | (w, none) => (w, none)
    | (w, some (.error _)) => (w, some (.error ()))
    | (w, some (.ok ())) =>
      match copyFile site path (littleEndian ++ [fileName path]) w with
      | (w, false) => (w, some (.error ()))
      | (w, true) =>
        match copyFile site path (bigEndian ++ [fileName path]) w with
        | (w, false) => (w, some (.error ()))
        | (w, true) => testFile site.toLab (littleEndian ++ [fileName path]) (bigEndian ++ [fileName path]) d w

/-- `TempDir` is dropped: it is removed with all that is in it. -/
def dropTemp {σ E : Type} (site : Site σ E) (temp : Path) (w : World σ) : World σ :=
  { w with
    files := fun q => if temp.isPrefixOf q && !site.stays q then none else w.files q
    dirs := fun q => if temp.isPrefixOf q && !site.stays q then false else w.dirs q }

/-- `run_single_endian_test`, endian_test.rs:134-220. -/
def runSingleEndianTest {σ E : Type} (site : Site σ E) (path : Path) (w : World σ) : World σ × Option (Except Unit TestResult) :=
  match run site.os (createDirAll [] (site.root ++ ["tmp"]) (.ret (.ok ()))) w with
  | (w, none) => (w, none)
  | (w, some (.error _)) => (w, some (.error ()))
  | (w, some (.ok ())) =>
    match site.tempName w with
    | none => (w, some (.error ()))
    | some name =>
      let temp := site.root ++ ["tmp"] ++ [name]
      if isThere w temp then (w, some (.error ()))
      else
        let r := testIn site temp path { w with dirs := fun q => if q = temp then true else w.dirs q }
        (dropTemp site temp r.1, r.2)

/-- The loop of `run_all_endian_tests`, endian_test.rs:114-128. -/
def testAll {σ E : Type} (site : Site σ E) : List Path → World σ → World σ × Option (Except Unit (List TestResult))
  | [], w => (w, some (.ok []))
  | path :: rest, w =>
    match runSingleEndianTest site path w with
    | (w, none) => (w, none)
    | (w, some (.error e)) => (w, some (.error e))
    | (w, some (.ok r)) =>
      match testAll site rest w with
      | (w, none) => (w, none)
      | (w, some (.error e)) => (w, some (.error e))
      | (w, some (.ok rs)) => (w, some (.ok (r :: rs)))

/-- `run_all_endian_tests`, endian_test.rs:106-131. -/
def runAllEndianTests {σ E : Type} (site : Site σ E) (w : World σ) : World σ × Option (Except Unit (List TestResult)) :=
  match getTestFiles site w with
  | (w, none) => (w, none)
  | (w, some files) => testAll site files w

/-- `check_tool_available`, tool_check.rs:16-36. -/
def checkToolAvailable (answer : Option Bool) : Except EndianError Unit :=
  match answer with
  | none => .error .toolNotFound
  | some false => .error .commandFailed
  | some true => .ok ()

/-- `verify_all_tools`, tool_check.rs:5-13. -/
def verifyAllTools (tool : String → Option Bool) : Except EndianError Unit :=
  match checkToolAvailable (tool "cargo") with
  | .error e => .error e
  | .ok () =>
    match checkToolAvailable (tool "cross") with
    | .error e => .error e
    | .ok () => .ok ()

/-- `handle_debug_command`, mod.rs:62-85.  `none` is a panic (or not enough fuel or depth). -/
def handleDebugCommand {σ E : Type} (site : Site σ E) (skipToolCheck : Bool) (w : World σ) : World σ × Option (Except EndianError Unit) :=
  match if skipToolCheck then .ok () else verifyAllTools site.tool with
  | .error e => (w, some (.error e))
  | .ok () =>
    match runAllEndianTests site w with
    | (w, none) => (w, none)
    | (w, some (.error _)) => (w, some (.error .io))
    | (w, some (.ok results)) => (w, some (if reportOk results then .ok () else .error .testsFailed))

end Dlt.DebugEndian
