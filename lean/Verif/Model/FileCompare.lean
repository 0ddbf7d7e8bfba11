import Verif.Model.Cli
/-!
# Comparison of files and directories in the endianness test

Models `/repo/src/tools/dxt-lossless-transform-cli/src/commands/debug_endian/file_compare.rs`, without the random names
(lines 8-37).

Simplifications.  No links; files and directories do not change meanwhile.  Both buffers hold 64 KiB, more than the buffer of
`BufReader` (8 KiB), which therefore passes every call of `read` on to the file.  Errors carry no information here.
-/

namespace Dlt.FileCompare

open Dlt.FileIo

/-- The answers of the operating system. -/
structure Disk where
  /-- `read_dir` with its iterator: the names in the directory; `none` is an error. -/
  list : Path → Option (List String)
  /-- `Path::exists` and `metadata` succeed for an existing file. -/
  stat : Path → Bool
  /-- `File::open` succeeds for an existing file. -/
  canOpen : Path → Bool
  /-- The `k`-th call of `read` on the opened file: the number of bytes that the system would like to return; `none` is an error. -/
  read : Path → Nat → Option Nat

/-- `BUFFER_SIZE`, file_compare.rs:68. -/
def bufferSize : Nat := 64 * 1024

/-- `Read::read` with a buffer of `n` bytes on a file with the bytes `rest` to come: the bytes read and the bytes left.  At least one byte
is read unless the buffer is empty or the file ends. -/
def readSome (want n : Nat) (rest : Buf) : Buf × Buf :=
  let k := min n (max want 1)
  (rest.take k, rest.drop k)

/-- The loop, file_compare.rs:72-90; `k` counts the iterations.  `none`: `fuel` is exhausted. -/
def compareLoop (r1 r2 : Nat → Option Nat) : (fuel k : Nat) → Buf → Buf → Option (Except Unit Bool)
  | 0, _, _, _ => none
  | fuel + 1, k, a, b =>
    match r1 k with
    | none => some (.error ())
    | some want1 =>
      match r2 k with
      | none => some (.error ())
      | some want2 =>
        let (x, a) := readSome want1 bufferSize a
        let (y, b) := readSome want2 bufferSize b
        if x.length ≠ y.length then some (.ok false)
        else if x ≠ y then some (.ok false)
        else if x.length = 0 then some (.ok true)
        else compareLoop r1 r2 fuel (k + 1) a b

/-- `compare_files`, file_compare.rs:40-93.  A directory in place of a file counts as missing (`read` would fail).  The loop has enough
fuel: `C69_files`. -/
def compareFiles (disk : Disk) (files : Path → Option Buf) (p1 p2 : Path) : Option (Except Unit Bool) :=
  match files p1, files p2 with
  | some a, some b =>
    if !disk.stat p1 then some (.error ())
    else if !disk.stat p2 then some (.error ())
    else if a.length ≠ b.length then some (.ok false)
    else if !disk.canOpen p1 then some (.error ())
    else if !disk.canOpen p2 then some (.error ())
    else compareLoop (disk.read p1) (disk.read p2) (a.length + 1) 0 a b
  | _, _ => some (.error ())

/-- The loop of `collect_files_recursive`, file_compare.rs:133-144: relative paths of files, in order.  `visit` is the recursive call;
`rel` is the directory relative to the base directory. -/
def collectEntries (isFile isDir : Path → Bool) (visit : Path → Option (Except Unit (List Path))) (base rel : Path) :
    List String → Option (Except Unit (List Path))
  | [] => some (.ok [])
  | name :: names =>
    if isFile (base ++ (rel ++ [name])) then
      match collectEntries isFile isDir visit base rel names with
      | some (.ok rest) => some (.ok ((rel ++ [name]) :: rest))
      | other => other
    else if isDir (base ++ (rel ++ [name])) then
      match visit (rel ++ [name]) with
      | some (.ok inner) =>
        match collectEntries isFile isDir visit base rel names with
        | some (.ok rest) => some (.ok (inner ++ rest))
        | other => other
      | other => other
    else collectEntries isFile isDir visit base rel names

/-- `collect_files_recursive` (and `collect_directory_files` for `rel = []`), file_compare.rs:121-147.  `none`: directories are nested
deeper than `fuel`. -/
def collect (disk : Disk) (isFile isDir : Path → Bool) (base : Path) : (fuel : Nat) → (rel : Path) →
    Option (Except Unit (List Path))
  | 0, _ => none
  | fuel + 1, rel =>
    match disk.list (base ++ rel) with
    | none => some (.error ())
    | some names => collectEntries isFile isDir (collect disk isFile isDir base fuel) base rel names

/-- The loop of `compare_directories`, file_compare.rs:106-115. -/
def comparePairs (disk : Disk) (files : Path → Option Buf) (dir1 dir2 : Path) (entries2 : List Path) :
    List Path → Option (Except Unit Bool)
  | [] => some (.ok true)
  | rel :: rest =>
    match entries2.find? (· = rel) with
    | some rel2 =>
      match compareFiles disk files (dir1 ++ rel) (dir2 ++ rel2) with
      | some (.ok true) => comparePairs disk files dir1 dir2 entries2 rest
      | other => other
    | none => some (.ok false)

/-- `compare_directories`, file_compare.rs:96-118. -/
def compareDirectories (disk : Disk) {σ : Type} (w : World σ) (fuel : Nat) (dir1 dir2 : Path) : Option (Except Unit Bool) :=
  let isFile := fun p => (w.files p).isSome
  match collect disk isFile w.dirs dir1 fuel [] with
  | none => none
  | some (.error e) => some (.error e)
  | some (.ok entries1) =>
    match collect disk isFile w.dirs dir2 fuel [] with
    | none => none
    | some (.error e) => some (.error e)
    | some (.ok entries2) =>
      if entries1.length ≠ entries2.length then some (.ok false)
      else comparePairs disk w.files dir1 dir2 entries2 entries1

end Dlt.FileCompare
