import Verif.Model.FileFormats
/-!
# File operations

Models `/repo/src/api/dxt-lossless-transform-file-formats-api/src/file_io` and what it needs of the operating system.

A program is a tree of system calls, so that several programs can be interleaved call by call (`Model/Cli.lean`).  The
operating system and the crate `lightweight-mmap` (not part of the repository) are modelled by the record `Os` of arbitrary
answers that depend on the arguments of the call, and by the effect of each call on the `World` in `exec`.

Simplifications.  A path is the list of its components and names one file (no links; files are not removed or renamed).
Path components are valid UTF-8.  Reading a mapping means reading the file at the time of mapping.  The stores of a
transformation into a mapping are one step.
-/

namespace Dlt.FileIo

open Dlt.FileFormats

/-- Components of an absolute path. -/
abbrev Path := List String

/-- Files, directories, the byte counter of a batch run (`Model/Cli.lean`), and the state `σ` of estimators and handlers. -/
structure World (σ : Type) where
  files : Path → Option Buf
  dirs : Path → Bool
  counter : BitVec 64
  st : σ

/-- `FileIoError`, error.rs:40-60: a handle cannot be opened, a mapping cannot be created, another I/O error. -/
inductive IoError where
  | fileHandle
  | memoryMapping
  | std
  deriving DecidableEq, Repr

/-- `FileOperationError`, error.rs:14-22. -/
inductive FileError where
  | io (e : IoError)
  | transform (e : TransformError)
  deriving DecidableEq, Repr

/-- The answers of the operating system. -/
structure Os where
  /-- An existing file can be opened for reading. -/
  canOpen : Path → Bool
  /-- Its size can be queried. -/
  canSize : Path → Bool
  /-- That many bytes of the file can be mapped read-only. -/
  canMap : Path → Nat → Bool
  /-- That many bytes of the file can be mapped for writing. -/
  canMapWrite : Path → Nat → Bool
  /-- `create_preallocated` in an existing directory: the former contents to the new ones, and whether the call succeeds. -/
  create : Path → Nat → Option Buf → Option Buf × Bool
  /-- A directory can be made there. -/
  canMkdir : Path → Bool
  /-- `str::to_lowercase` -/
  lower : String → String
  /-- `usize::MAX` -/
  usizeMax : Nat

/-- `create_preallocated` yields a file of the size requested if it succeeds. -/
def Os.Wf (os : Os) : Prop :=
  ∀ p n old, (os.create p n old).2 = true → ∃ b, (os.create p n old).1 = some b ∧ b.length = n

/-- System calls and their results. -/
inductive Sys (σ : Type) : Type → Type 1 where
  /-- `ReadOnlyFileHandle::open` -/
  | openRead (p : Path) : Sys σ (Except IoError Unit)
  /-- `ReadOnlyFileHandle::size` -/
  | size (p : Path) : Sys σ (Except IoError Nat)
  /-- `ReadOnlyMmap::new(handle, 0, n)` and `as_slice` -/
  | mapRead (p : Path) (n : Nat) : Sys σ (Except IoError Buf)
  /-- `ReadWriteFileHandle::create_preallocated` -/
  | create (p : Path) (n : Nat) : Sys σ (Except IoError Unit)
  /-- `ReadWriteMmap::new(handle, 0, n)` and `as_mut_slice` -/
  | mapWrite (p : Path) (n : Nat) : Sys σ (Except IoError Buf)
  /-- The mapping of the file now holds these bytes. -/
  | store (p : Path) (b : Buf) : Sys σ Unit
  /-- `std::fs::create_dir`; an existing directory is fine (see `createDirAll`). -/
  | mkdir (p : Path) : Sys σ (Except IoError Unit)
  /-- `std::fs::metadata(p)` and `len` -/
  | fileLen (p : Path) : Sys σ (Option Nat)
  /-- `AtomicU64::fetch_add` on the counter of the batch run -/
  | add (n : Nat) : Sys σ Unit
  /-- A call of a handler or estimator; `none` is a panic. -/
  | call {β : Type} (f : σ → Option (σ × β)) : Sys σ β

/-- The world with other contents at `p`. -/
def World.setFile {σ : Type} (w : World σ) (p : Path) (c : Option Buf) : World σ :=
  { w with files := fun q => if q = p then c else w.files q }

/-- The effect of a system call; `none` is a panic or an access outside a mapped file. -/
def exec {σ β : Type} (os : Os) (s : Sys σ β) (w : World σ) : World σ × Option β :=
  match s with
  | .openRead p =>
    (w, some (if (w.files p).isSome && os.canOpen p then .ok () else .error .fileHandle))
  | .size p =>
    match w.files p with
    | none => (w, none)
    | some b => (w, some (if os.canSize p then .ok b.length else .error .fileHandle))
  | .mapRead p n =>
    match w.files p with
    | none => (w, none)
    | some b =>
      if os.canMap p n then (if n ≤ b.length then (w, some (.ok (b.take n))) else (w, none))
      else (w, some (.error .memoryMapping))
  | .create p n =>
    if w.dirs p.dropLast && !w.dirs p then
      (w.setFile p (os.create p n (w.files p)).1, some (if (os.create p n (w.files p)).2 then .ok () else .error .fileHandle))
    else (w, some (.error .fileHandle))
  | .mapWrite p n =>
    match w.files p with
    | none => (w, none)
    | some b =>
      if os.canMapWrite p n then (if n ≤ b.length then (w, some (.ok (b.take n))) else (w, none))
      else (w, some (.error .memoryMapping))
  | .store p b =>
    match w.files p with
    | none => (w, none)
    | some old => if b.length ≤ old.length then (w.setFile p (some (b ++ old.drop b.length)), some ()) else (w, none)
  | .mkdir p =>
    if w.dirs p then (w, some (.ok ()))
    else if (w.files p).isNone && os.canMkdir p then
      ({ w with dirs := fun q => if q = p then true else w.dirs q }, some (.ok ()))
    else (w, some (.error .std))
  | .fileLen p => (w, some ((w.files p).map List.length))
  | .add n => ({ w with counter := w.counter + BitVec.ofNat 64 n }, some ())
  | .call f =>
    match f w.st with
    | none => (w, none)
    | some (st, b) => ({ w with st }, some b)

/-- A program: a result, a panic, or a system call and what to do with its answer. -/
inductive Prog (σ α : Type) : Type 1 where
  | ret (a : α)
  | panic
  | op {β : Type} (s : Sys σ β) (k : β → Prog σ α)

namespace Prog

/-- Sequencing. -/
def bind {σ α β : Type} : Prog σ α → (α → Prog σ β) → Prog σ β
  | .ret a, f => f a
  | .panic, _ => .panic
  | .op s k, f => .op s fun b => bind (k b) f

/-- A program that runs alone. -/
def run {σ α : Type} (os : Os) : Prog σ α → World σ → World σ × Option α
  | .ret a, w => (w, some a)
  | .panic, w => (w, none)
  | .op s k, w =>
    match exec os s w with
    | (w, none) => (w, none)
    | (w, some b) => run os (k b) w

/-- The operator `?` after a system call. -/
def try' {σ α β : Type} (s : Sys σ (Except IoError β)) (k : β → Prog σ (Except FileError α)) : Prog σ (Except FileError α) :=
  .op s fun r =>
    match r with
    | .error e => .ret (.error (.io e))
    | .ok b => k b

end Prog

open Prog

/-- Opening and mapping the input; the same three lines in file.rs:39-41, 76-78, 144-147, 222-225 and
file_to_slice.rs:45-47, 96-98, 177-180, 266-269.  `as usize` wraps. -/
def withInput {σ α : Type} (os : Os) (p : Path) (k : Buf → Prog σ (Except FileError α)) : Prog σ (Except FileError α) :=
  try' (.openRead p) fun _ =>
  try' (.size p) fun n =>
  try' (.mapRead p (n % (os.usizeMax + 1))) fun input =>
  k input

/-- Creating and mapping the output and transforming into it: file.rs:42-53, 80-90, 157-169, 235-242 and slice_to_file.rs:39-50,
73-79, 144-156, 219-226.  `f` is the call of the slice API. -/
def intoFile {σ α : Type} (p : Path) (n : Nat) (f : Buf → σ → Option (Res σ α)) : Prog σ (Except FileError α) :=
  try' (.create p n) fun _ =>
  try' (.mapWrite p n) fun output =>
  .op (.call fun st => (f output st).map fun (o, st, r) => (st, (o, r))) fun (o, r) =>
  .op (.store p o) fun _ =>
  .ret (r.mapError .transform)

/-- `transform_file_with_handler`, file.rs:28-54.  If both paths name one file its input and output mappings alias, which
is undefined behaviour; the file has been created anew by then. -/
def transformFileWithHandler {σ E : Type} (os : Os) (h : Handler σ E) (inp out : Path) (bundle : Bundle σ E) :
    Prog σ (Except FileError Unit) :=
  withInput os inp fun input =>
  intoFile out input.length fun output st =>
    if inp = out then none else transformSliceWithBundle h input output bundle st

/-- `untransform_file_with_handler`, file.rs:70-91. -/
def untransformFileWithHandler {σ E : Type} (os : Os) (h : Handler σ E) (inp out : Path) :
    Prog σ (Except FileError Unit) :=
  withInput os inp fun input =>
  intoFile out input.length fun output st =>
    if inp = out then none else untransformSlice h input output st

/-- The loops over the handlers (file.rs:154-174, 232-247 and the others): `detect` asks a handler, `go` uses it. -/
def tryHandlers {σ E α : Type} (detect : Handler σ E → σ → Option (σ × Bool)) (go : Handler σ E → Prog σ α)
    (rejected : α) : List (Handler σ E) → Prog σ α
  | [] => .ret rejected
  | h :: hs => .op (.call (detect h)) fun yes => if yes then go h else tryHandlers detect go rejected hs

/-- The part of `Path::extension` after the file name has been found (std): the text behind the last dot, unless there is
no dot or the only dot comes first. -/
def extensionOf (name : String) : Option String :=
  let cs := name.toList
  if name = ".." then none
  else
    let after := (cs.reverse.takeWhile (· ≠ '.')).reverse
    let before := cs.length - after.length - 1
    if after.length = cs.length ∨ before = 0 then none else some (String.ofList after)

/-- `extract_lowercase_extension`, mod.rs:37-41. -/
def extractLowercaseExtension (os : Os) (p : Path) : Option String :=
  p.getLast?.bind fun name => (extensionOf name).map os.lower

/-- `transform_file_with_multiple_handlers`, file.rs:131-175. -/
def transformFileWithMultipleHandlers {σ E : Type} (os : Os) (hs : List (Handler σ E)) (inp out : Path)
    (bundle : Bundle σ E) : Prog σ (Except FileError (Handler σ E)) :=
  withInput os inp fun input =>
  tryHandlers (fun h => h.canHandle input (extractLowercaseExtension os inp))
    (fun h => intoFile out input.length fun output st =>
      if inp = out then none
      else (transformSliceWithBundle h input output bundle st).map fun (o, st, r) => (o, st, r.map fun _ => h))
    (.error (.transform .noSupportedHandler)) hs

/-- `untransform_file_with_multiple_handlers`, file.rs:212-248. -/
def untransformFileWithMultipleHandlers {σ E : Type} (os : Os) (hs : List (Handler σ E)) (inp out : Path) :
    Prog σ (Except FileError (Handler σ E)) :=
  withInput os inp fun input =>
  tryHandlers (fun h => h.canHandleUntransform input (extractLowercaseExtension os inp))
    (fun h => intoFile out input.length fun output st =>
      if inp = out then none
      else (untransformSlice h input output st).map fun (o, st, r) => (o, st, r.map fun _ => h))
    (.error (.transform .noSupportedHandler)) hs

/-- The call of the slice API on the first `input.len()` bytes of the output slice, file_to_slice.rs:50-68, 101-118, 199-209,
288-293; the output slice is part of the result in every case. -/
def intoSlice {σ α : Type} (input output : Buf) (f : Buf → σ → Option (Res σ α)) :
    Prog σ (Buf × Except FileError α) :=
  .op (.call fun st => (f (output.take input.length) st).map fun (o, st, r) => (st, (o, r))) fun (o, r) =>
  .ret (o ++ output.drop input.length, r.mapError .transform)

/-- Opening and mapping the input and the check of the output slice, file_to_slice.rs:45-58, 96-109, 177-191, 266-280. -/
def withInputFor {σ α : Type} (os : Os) (p : Path) (output : Buf)
    (k : Buf → Prog σ (Buf × Except FileError α)) : Prog σ (Buf × Except FileError α) :=
  .op (.openRead p) fun r => match r with
  | .error e => .ret (output, .error (.io e))
  | .ok () => .op (.size p) fun r => match r with
  | .error e => .ret (output, .error (.io e))
  | .ok n => .op (.mapRead p (n % (os.usizeMax + 1))) fun r => match r with
  | .error e => .ret (output, .error (.io e))
  | .ok input =>
    if output.length < input.length then
      .ret (output, .error (.transform (.formatHandler (.outputBufferTooSmall input.length output.length))))
    else k input

/-- `transform_file_to_slice_with_handler`, file_to_slice.rs:34-69. -/
def transformFileToSliceWithHandler {σ E : Type} (os : Os) (h : Handler σ E) (inp : Path) (output : Buf)
    (bundle : Bundle σ E) : Prog σ (Buf × Except FileError Unit) :=
  withInputFor os inp output fun input =>
  intoSlice input output fun output st => transformSliceWithBundle h input output bundle st

/-- `untransform_file_to_slice_with_handler`, file_to_slice.rs:90-119. -/
def untransformFileToSliceWithHandler {σ E : Type} (os : Os) (h : Handler σ E) (inp : Path) (output : Buf) :
    Prog σ (Buf × Except FileError Unit) :=
  withInputFor os inp output fun input =>
  intoSlice input output fun output st => untransformSlice h input output st

/-- `transform_file_to_slice_with_multiple_handlers`, file_to_slice.rs:164-214. -/
def transformFileToSliceWithMultipleHandlers {σ E : Type} (os : Os) (hs : List (Handler σ E)) (inp : Path) (output : Buf)
    (bundle : Bundle σ E) : Prog σ (Buf × Except FileError (Handler σ E)) :=
  withInputFor os inp output fun input =>
  tryHandlers (fun h => h.canHandle input (extractLowercaseExtension os inp))
    (fun h => intoSlice input output fun output st =>
      (transformSliceWithBundle h input output bundle st).map fun (o, st, r) => (o, st, r.map fun _ => h))
    (output, .error (.transform .noSupportedHandler)) hs

/-- `untransform_file_to_slice_with_multiple_handlers`, file_to_slice.rs:256-298. -/
def untransformFileToSliceWithMultipleHandlers {σ E : Type} (os : Os) (hs : List (Handler σ E)) (inp : Path)
    (output : Buf) : Prog σ (Buf × Except FileError (Handler σ E)) :=
  withInputFor os inp output fun input =>
  tryHandlers (fun h => h.canHandleUntransform input (extractLowercaseExtension os inp))
    (fun h => intoSlice input output fun output st =>
      (untransformSlice h input output st).map fun (o, st, r) => (o, st, r.map fun _ => h))
    (output, .error (.transform .noSupportedHandler)) hs

/-- `transform_slice_to_file_with_handler`, slice_to_file.rs:28-51. -/
def transformSliceToFileWithHandler {σ E : Type} (h : Handler σ E) (input : Buf) (out : Path) (bundle : Bundle σ E) :
    Prog σ (Except FileError Unit) :=
  intoFile out input.length fun output st => transformSliceWithBundle h input output bundle st

/-- `untransform_slice_to_file_with_handler`, slice_to_file.rs:67-80. -/
def untransformSliceToFileWithHandler {σ E : Type} (h : Handler σ E) (input : Buf) (out : Path) :
    Prog σ (Except FileError Unit) :=
  intoFile out input.length fun output st => untransformSlice h input output st

/-- `transform_slice_to_file_with_multiple_handlers`, slice_to_file.rs:127-162. -/
def transformSliceToFileWithMultipleHandlers {σ E : Type} (hs : List (Handler σ E)) (input : Buf) (out : Path)
    (bundle : Bundle σ E) (ext : Option String) : Prog σ (Except FileError (Handler σ E)) :=
  tryHandlers (fun h => h.canHandle input ext)
    (fun h => intoFile out input.length fun output st =>
      (transformSliceWithBundle h input output bundle st).map fun (o, st, r) => (o, st, r.map fun _ => h))
    (.error (.transform .noSupportedHandler)) hs

/-- `untransform_slice_to_file_with_multiple_handlers`, slice_to_file.rs:205-232. -/
def untransformSliceToFileWithMultipleHandlers {σ E : Type} (hs : List (Handler σ E)) (input : Buf) (out : Path)
    (ext : Option String) : Prog σ (Except FileError (Handler σ E)) :=
  tryHandlers (fun h => h.canHandleUntransform input ext)
    (fun h => intoFile out input.length fun output st =>
      (untransformSlice h input output st).map fun (o, st, r) => (o, st, r.map fun _ => h))
    (.error (.transform .noSupportedHandler)) hs

end Dlt.FileIo
