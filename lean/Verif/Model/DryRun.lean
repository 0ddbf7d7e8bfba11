import Verif.Model.StatsCommand
/-!
# The parallel dry run of the benchmark commands

Models of `/repo/src/tools/dxt-lossless-transform-cli/src` the file `commands/debug_bc1/benchmark.rs`, lines 91-119 (the dry run over all
files with rayon), 166-255 (`process_file`), 257-291 and 357-374 (the scenarios up to the return of the dry run); bc2 and bc3: the same
with their scenarios.  `Model/DebugBench.lean` makes the dry run file by file; here each file has a thread and the threads share the two
caches as in `Model/Caches.lean`: a step is one critical section of the mutex, one system call, or one answer of a compressor or an
estimator.

A thread calls the cached functions one after the other.  What it does depends, apart from its file and its memory, only on how its calls
end.  So a thread is a function from the ends of its calls to the list of its calls.

Simplifications.  Each file has a thread of its own; the thread pool of rayon has fewer, which leaves fewer executions.  The files do not
change while the command runs and nobody else changes the cache directory.  The answers of the estimators are arbitrary.  Printing is left
out.
-/

namespace Dlt.DryRun

open Dlt.Cache Dlt.DebugIo Dlt.DebugStats Dlt.DebugBench Dlt.FileFormats Dlt.FileIo Dlt.FileIo.Prog Dlt.Cli

/-! ## Threads -/

/-- What a thread knows: how its call number `n` ends, `none` for an error, else the size for a call that asks for one; and its calls so
far. -/
abbrev DryTape := StatsCommand.Tape (Option Nat) Call

/-- What a thread sees of a reply.  The compressed data are not used in a dry run, benchmark.rs:288-291 and 371-374. -/
def outcome : Reply → Option Nat
  | .size n => some n
  | .data _ => some 0
  | .error => none

/-- A call and how it ends. -/
def dryAsk (t : DryTape) (c : Call) : DryTape × Option Nat := (t.make c, t.view t.log.length)

/-- `CachedSizeEstimator`, estimation/mod.rs:105-183, of a thread. -/
def estimator (level : BitVec 32) (a : Algorithm) (inner : Estimator Unit CliError) : Estimator DryTape CliError where
  maxSize t len := (t, (inner.maxSize () len).2)
  estimate t d _ :=
    match dryAsk t (.size d level a) with
    | (t, some n) => (t, .ok n)
    | (t, none) => (t, .error (.debug "estimation failed"))

/-- `determine_best_transform_details_with_estimator_cached`, debug_bc1/mod.rs:342-363; `buf` is the answer of the allocator. -/
def dryBest {S : Type} (c : Codec S) (lib : Lib) (level : BitVec 32) (a : Algorithm) (data : Buf) (buf : Option Buf) (t : DryTape) :
    Option (DryTape × Except CliError S) :=
  match createSizeEstimator lib a level with
  | .error e => some (t, .error e)
  | .ok inner =>
    match buf with
    | none => some (t, .error (.debug "Failed to allocate output buffer"))
    | some buf =>
      match c.auto (estimator level a inner) data buf data.length t with
      | none => none
      | some (_, t, r) => some (t, r.mapError fun _ => .debug "API recommendation failed")

/-- `compress_data_cached`, compression/helpers.rs:43-84, of a thread; an error is returned with `?`. -/
def dryCompress (x : Buf) (level : BitVec 32) (a : Algorithm) (t : DryTape) : DryTape × Except CliError Unit :=
  match dryAsk t (.compress x level a) with
  | (t, some _) => (t, .ok ())
  | (t, none) => (t, .error (.debug "compression failed"))

/-- `process_scenario` up to the return of the dry run, debug_bc1/benchmark.rs:257-291. -/
def dryScenario {S : Type} (c : BenchCodec S) (level : BitVec 32) (a : Algorithm) (data : Buf) (buf : Option Buf) (s : S) (t : DryTape) :
    Option (DryTape × Except CliError Unit) :=
  match buf with
  | none => some (t, .error .allocate)
  | some buf =>
    match c.transform data buf data.length s with
    | none => none
    | some x => some (dryCompress x level a t)

/-- The loop over the scenarios, debug_bc1/benchmark.rs:231-239; `k` is the number of allocations so far. -/
def dryLoop {S : Type} (c : BenchCodec S) (heap : Heap) (level : BitVec 32) (a : Algorithm) (data : Buf) :
    List (String × S) → Nat → DryTape → Option (DryTape × Except CliError Unit)
  | [], _, t => some (t, .ok ())
  | (_, s) :: rest, k, t =>
    match dryScenario c level a data (heap k data.length) s t with
    | none => none
    | some (t, .error e) => some (t, .error e)
    | some (t, .ok ()) => dryLoop c heap level a data rest (k + 1) t

/-- The callback of `process_file` in a dry run, debug_bc1/benchmark.rs:182-251, and `process_untransformed_scenario` up to the return of
the dry run, 357-374. -/
def dryTexture {S : Type} (c : BenchCodec S) (heap : Heap) (lib : Lib) (opts : AlgorithmOptions) (data : Buf) (t : DryTape) :
    Option (DryTape × Except CliError Unit) :=
  match dryBest c.toCodec lib opts.getEstimateLevel opts.getEstimateAlgorithm data (heap 0 data.length) t with
  | none => none
  | some (t, .error e) => some (t, .error e)
  | some (t, .ok best) =>
    match dryLoop c heap opts.getLevel opts.algorithm data (("API Recommended", best) :: c.scenarios) 1 t with
    | none => none
    | some (t, .error e) => some (t, .error e)
    | some (t, .ok ()) => some (dryCompress data opts.getLevel opts.algorithm t)

/-- The command after the files are found: options, files and memory.  Thread number `i` handles entry number `i`; `codec i` and `heap i`
are the format and the memory for it. -/
structure Setup (S : Type) where
  os : Os
  pl : Dds.Platform
  format : Format
  lib : Lib
  raw : Raw
  hash : Buf → BitVec 128
  opts : AlgorithmOptions
  files : Path → Option Buf
  entries : List Path
  codec : Nat → BenchCodec S
  heap : Nat → Heap

/-- `process_file` in a dry run, debug_bc1/benchmark.rs:166-255: there is no result to fill. -/
def dryFile {S : Type} (s : Setup S) (i : Nat) (p : Path) : Prog DryTape (Except CliError Unit) :=
  extractBlocksFromFile s.os s.pl p s.format.filter fun data _ =>
    .op (.call fun t => dryTexture (s.codec i) (s.heap i) s.lib s.opts data t) .ret

/-- What thread `i` does if its calls end like this, debug_bc1/benchmark.rs:98-117: its calls; `none` if it panics.  The result of
`process_file` is ignored. -/
def calls {S : Type} (s : Setup S) (i : Nat) (view : Nat → Option Nat) : Option (List Call) :=
  match s.entries[i]? with
  | none => some []
  | some p =>
    match run s.os (dryFile s i p) ⟨s.files, fun _ => false, 0, ⟨view, []⟩⟩ with
    | (_, none) => none
    | (w, some _) => some w.st.log

/-- `debug-bc1 benchmark`, debug_bc1/benchmark.rs; `menv i` and `norm` are the memory of the searches, `norm` is given with
`--experimental-normalize`. -/
def setup1 (os : Os) (pl : Dds.Platform) (lib : Lib) (raw : Raw) (hash : Buf → BitVec 128) (opts : AlgorithmOptions)
    (files : Path → Option Buf) (entries : List Path) (heap : Nat → Heap) (menv : Nat → Env) (useAll : Bool)
    (norm : Option (Nat → Norm.Bc1.Heap)) : Setup ColourSettings :=
  ⟨os, pl, .bc1, lib, raw, hash, opts, files, entries, fun i => DebugBench.bc1 (menv i) pl.m useAll (norm.map fun h => h i), heap⟩

/-- `debug-bc2 benchmark`, debug_bc2/benchmark.rs:93-115, 165-287 and 353-370. -/
def setup2 (os : Os) (pl : Dds.Platform) (lib : Lib) (raw : Raw) (hash : Buf → BitVec 128) (opts : AlgorithmOptions)
    (files : Path → Option Buf) (entries : List Path) (heap : Nat → Heap) (menv : Nat → Env) (useAll : Bool) : Setup ColourSettings :=
  ⟨os, pl, .bc2, lib, raw, hash, opts, files, entries, fun i => DebugBench.bc2 (menv i) pl.m useAll, heap⟩

/-- `debug-bc3 benchmark`, debug_bc3/benchmark.rs:93-115, 165-323 and 389-406. -/
def setup3 (os : Os) (pl : Dds.Platform) (lib : Lib) (raw : Raw) (hash : Buf → BitVec 128) (opts : AlgorithmOptions)
    (files : Path → Option Buf) (entries : List Path) (heap : Nat → Heap) (menv : Nat → Env) (useAll : Bool) : Setup Bc3.Settings :=
  ⟨os, pl, .bc3, lib, raw, hash, opts, files, entries, fun i => DebugBench.bc3 (menv i) pl.m useAll, heap⟩

/-! ## Executions -/

/-- A thread: its calls that have ended, with the replies, and the one that it makes at the moment. -/
structure Thread where
  past : List (Call × Reply)
  now : Option (Call × Pc)

/-- What the threads share, and the threads. -/
structure State where
  shared : Shared
  threads : Nat → Thread

/-- Thread `i` changes. -/
def State.set (st : State) (i : Nat) (t : Thread) : State :=
  { st with threads := fun j => if j = i then t else st.threads j }

/-- The calls that have ended did so as `view` says. -/
def Saw (past : List (Call × Reply)) (view : Nat → Option Nat) : Prop := ∀ k c r, past[k]? = some (c, r) → view k = outcome r

/-- The compressor gives what it gives for these data and this level, compression/mod.rs:146-158. -/
def FromCompressor (raw : Raw) : Call → Pc → Pc → Prop
  | .compress d l .zstandard, .compressing, pc' =>
    match raw.compress l d with
    | some out => pc' = .makingDir out
    | none => pc' = .done .error
  | _, _, _ => True

/-- A step of the dry run.  `ok` says which steps of a call the environment allows. -/
inductive Step {S : Type} (s : Setup S) (ok : Pc → Pc → Prop) : State → State → Prop where
  /-- A thread makes its next call. -/
  | call {st : State} (i : Nat) (view : Nat → Option Nat) {l : List Call} {c : Call} (hi : i < s.entries.length)
      (hn : (st.threads i).now = none) (hv : Saw (st.threads i).past view) (hl : calls s i view = some l)
      (hc : l[(st.threads i).past.length]? = some c) :
      Step s ok st (st.set i ⟨(st.threads i).past, some (c, c.begin)⟩)
  /-- A call makes a step. -/
  | work {st : State} (i : Nat) {c : Call} {pc pc' : Pc} {sh' : Shared} (hn : (st.threads i).now = some (c, pc))
      (h : Local s.hash c st.shared pc sh' pc') (hr : FromCompressor s.raw c pc pc') (ho : ok pc pc') :
      Step s ok st (State.set ⟨sh', st.threads⟩ i ⟨(st.threads i).past, some (c, pc')⟩)
  /-- A call ends. -/
  | back {st : State} (i : Nat) {c : Call} {r : Reply} (hn : (st.threads i).now = some (c, .done r)) :
      Step s ok st (st.set i ⟨(st.threads i).past ++ [(c, r)], none⟩)

/-- What can happen, from caches as they are when the command begins. -/
inductive Reached {S : Type} (s : Setup S) (ok : Pc → Pc → Prop) (sizes : Sizes) (files : List Char → Option Buf) : State → Prop where
  | start : Reached s ok sizes files ⟨⟨sizes, files, []⟩, fun _ => ⟨[], none⟩⟩
  | step {st st' : State} (h : Reached s ok sizes files st) (hs : Step s ok st st') : Reached s ok sizes files st'

/-- What can happen from some state on. -/
inductive Leads {S : Type} (s : Setup S) (ok : Pc → Pc → Prop) : State → State → Prop where
  | refl (st : State) : Leads s ok st st
  | head {st st' st'' : State} (hs : Step s ok st st') (h : Leads s ok st' st'') : Leads s ok st st''

/-- Any step of a call may happen. -/
def Anything : Pc → Pc → Prop := fun _ _ => True

/-- Estimators, compressors and the operating system report no errors; a `write` that fails leaves a note in `made`. -/
def NoErrors : Pc → Pc → Prop
  | .estimating, pc' => pc' ≠ .done .error
  | .opening, pc' => pc' ≠ .done .error
  | .reading _, pc' => pc' ≠ .done .error
  | .compressing, pc' => pc' ≠ .done .error
  | .makingDir _, .recording _ => False
  | .creating _, .recording _ => False
  | _, _ => True

/-- The end of `for_each`: no thread makes a call, and each has made all its calls. -/
structure Finished {S : Type} (s : Setup S) (st : State) : Prop where
  idle : ∀ i, (st.threads i).now = none
  all : ∀ i, i < s.entries.length → ∃ view l, Saw (st.threads i).past view ∧ calls s i view = some l ∧ l.length = (st.threads i).past.length

/-! ## The measured part -/

/-- The part of the command after the dry run, debug_bc1/benchmark.rs:119-152, with the caches as the dry run leaves them. -/
def measured {S : Type} (s : Setup S) (c : BenchCodec S) (env : Answers) (rate : Nat → Nat → Nat) (iterations warmup : Nat) :
    Prog (Progress × Option Result) (List Result) :=
  benchLoop s.os s.pl s.format c s.lib s.raw s.hash env rate
    ⟨iterations, warmup, s.opts.getLevel, s.opts.getEstimateLevel, s.opts.algorithm, s.opts.getEstimateAlgorithm, false⟩ s.entries []

/-- The world when the measured part begins. -/
def afterDryRun {S : Type} (s : Setup S) (st : State) : World (Progress × Option Result) :=
  ⟨s.files, fun _ => false, 0, (⟨st.shared.sizes, st.shared.files, 0, []⟩, none)⟩

end Dlt.DryRun
