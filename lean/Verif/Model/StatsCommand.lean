import Verif.Model.DebugBench
/-!
# The command compression-stats

Models of `/repo/src/tools/dxt-lossless-transform-cli/src` the file `commands/debug_bc1/calc_compression_stats.rs` (30-192; bc2 and
bc3: the same, one line less for the option `experimental_normalize`) and the statistics of
`debug_format/calc_compression_stats_common.rs` (97-330).

The files are analysed by several threads which share the size cache and the list of results, both in a `Mutex`.  An access to one of
them is one step.  What a thread does depends on the answers of the cache only, so a thread is a function from what it sees of the
cache, at each of its accesses, to the list of its accesses; an execution is a list of the accesses of all threads in which each
thread does what it does when it sees the cache as it is at that point of the list.

Simplifications.  Each file has a thread of its own; the thread pool of rayon has fewer, which leaves fewer executions.  The files do
not change while the command runs.  Printing and ratios, which are computed with `f64`, are left out.  The numbers of files per method,
`i32` in the code, are natural numbers.
-/

namespace Dlt.StatsCommand

open Dlt.Cache Dlt.DebugIo Dlt.DebugStats Dlt.DebugBench Dlt.FileFormats Dlt.FileIo Dlt.FileIo.Prog Dlt.Cli

/-! ## Threads -/

/-- The accesses of a thread to the cache (helpers.rs:127-152, estimation/mod.rs:140-180) and to the list of results
(debug_bc1/calc_compression_stats.rs:121). -/
inductive Access (S : Type) where
  | get (k : Key)
  | insert (k : Key) (n : Nat)
  | push (p : Path) (r : StatsResult S)
  deriving DecidableEq

/-- What a thread knows: what it sees at its access number `n`, and its accesses so far. -/
structure Tape (V A : Type) where
  view : Nat → V
  log : List A

/-- The thread makes an access. -/
def Tape.make {V A : Type} (t : Tape V A) (a : A) : Tape V A := { t with log := t.log ++ [a] }

/-- The threads of this command see the contents of the cache. -/
abbrev StatsTape (S : Type) := Tape Sizes (Access S)

instance {S : Type} : SharedCache (StatsTape S) where
  get t k := (t.make (.get k), (t.view t.log.length).get k)
  insert t k n := t.make (.insert k n)

/-- The command after the files are found: options, files and memory.  Thread number `i` analyses entry number `i`; `codec i`, `env i`
and `heap i` are the format and the memory for it. -/
structure Setup (S : Type) where
  os : Os
  pl : Dds.Platform
  format : Format
  /-- `T::default()` of the settings -/
  dflt : S
  lib : Lib
  hash : Buf → BitVec 128
  opts : AlgorithmOptions
  files : Path → Option Buf
  entries : List Path
  codec : Nat → Codec S
  env : Nat → Env
  heap : Nat → Heap

/-- What the callback leaves in `file_result`, debug_bc1/calc_compression_stats.rs:160-185: the old value if it fails. -/
def fillStats {S : Type} (old : StatsResult S) :
    StatsTape S × Except CliError (StatsResult S) → (StatsTape S × StatsResult S) × Except CliError Unit
  | (t, .ok res) => ((t, res), .ok ())
  | (t, .error e) => ((t, old), .error e)

/-- `analyze_bc1_compression_file`, debug_bc1/calc_compression_stats.rs:143-192.  The variable `file_result` is the second part of the
state. -/
def analyzeFile {S : Type} (s : Setup S) (i : Nat) (p : Path) : Prog (StatsTape S × StatsResult S) (Except CliError (StatsResult S)) :=
  .op (.call fun st => some ((st.1, ⟨0, 0, [], ⟨s.dflt, 0⟩⟩), ())) fun _ =>
  (extractBlocksFromFile s.os s.pl p s.format.filter fun data _ =>
    .op (.call fun st => (analyzeTexture (s.codec i) (s.env i) (s.heap i) s.lib s.hash s.opts.getLevel s.opts.algorithm
      s.opts.getEstimateLevel s.opts.getEstimateAlgorithm data st.1).map (fillStats st.2)) .ret).bind fun r =>
  match r with
  | .error e => .ret (.error e)
  | .ok () => .op (.call fun st => some (st, st.2)) fun res => .ret (.ok res)

/-- The body of `for_each`, debug_bc1/calc_compression_stats.rs:104-127; `print_analyzed_file`
(calc_compression_stats_common.rs:101-156) panics if there is no result for the default settings. -/
def job {S : Type} [DecidableEq S] (s : Setup S) (i : Nat) (p : Path) : Prog (StatsTape S × StatsResult S) Unit :=
  (analyzeFile s i p).bind fun r =>
  match r with
  | .error _ => .ret ()
  | .ok res =>
    match findDefault s.dflt res.allResults with
    | none => .panic
    | some _ => .op (.call fun st => some ((st.1.make (.push p res), st.2), ())) fun _ => .ret ()

/-- What thread `i` does if it sees the cache like this: its accesses; `none` if it panics. -/
def log {S : Type} [DecidableEq S] (s : Setup S) (i : Nat) (view : Nat → Sizes) : Option (List (Access S)) :=
  match s.entries[i]? with
  | none => some []
  | some p =>
    match run s.os (job s i p) ⟨s.files, fun _ => false, 0, (⟨view, []⟩, ⟨0, 0, [], ⟨s.dflt, 0⟩⟩)⟩ with
    | (_, none) => none
    | (w, some ()) => some w.st.1.log

/-! ## Executions -/

/-- The accesses of all threads in the order in which they happen, with the numbers of the threads. -/
abbrev Trace (S : Type) := List (Nat × Access S)

/-- The cache after an access, compression_size_cache.rs:87-98. -/
def Access.apply {S : Type} (cache : Sizes) : Access S → Sizes
  | .insert k n => cache.insert k n
  | _ => cache

/-- The cache after these accesses. -/
def cacheAfter {S : Type} (cache : Sizes) (tr : Trace S) : Sizes := tr.foldl (fun c x => x.2.apply c) cache

/-- The accesses of thread `i`. -/
def own {S : Type} (i : Nat) (tr : Trace S) : List (Access S) := (tr.filter fun x => x.1 = i).map Prod.snd

/-- The cache at the time of access number `n` of thread `i`; after the last one, the cache at the end. -/
def viewOf {S : Type} (i : Nat) (cache : Sizes) : Trace S → Nat → Sizes
  | [], _ => cache
  | x :: tr, n =>
    if x.1 = i then
      match n with
      | 0 => cache
      | n + 1 => viewOf i (x.2.apply cache) tr n
    else viewOf i (x.2.apply cache) tr n

/-- What can have happened up to some point, if the cache was `init` at the start: each access is the next one of its thread. -/
inductive Possible {S : Type} [DecidableEq S] (s : Setup S) (init : Sizes) : Trace S → Prop where
  | start : Possible s init []
  | step {tr : Trace S} {l : List (Access S)} (i : Nat) (a : Access S) (h : Possible s init tr)
      (hl : log s i (viewOf i init tr) = some l) (ha : own i tr ++ [a] <+: l) : Possible s init (tr ++ [(i, a)])

/-- The end of `for_each`: all threads have made all their accesses. -/
structure Complete {S : Type} [DecidableEq S] (s : Setup S) (init : Sizes) (tr : Trace S) : Prop where
  possible : Possible s init tr
  ended : ∀ i, i < s.entries.length → log s i (viewOf i init tr) = some (own i tr)

/-- The list of results in the order of the accesses, with the paths. -/
def results {S : Type} (tr : Trace S) : List (Path × StatsResult S) :=
  tr.filterMap fun x => match x.2 with
    | .push p r => some (p, r)
    | _ => none

/-! ## The command -/

/-- The entries that are left after the filter by size, debug_bc1/calc_compression_stats.rs:64-91; `metadata` is the length that
`entry.metadata()` gives, if any. -/
def retained (metadata : Path → Option Nat) (maxSize : Option (BitVec 64)) (entries : List Path) : List Path :=
  match maxSize with
  | none => entries
  | some max => entries.filter fun p => match metadata p with
    | some n => n ≤ max.toNat
    | none => false

/-- `handle_compression_stats_command` up to the statistics, debug_bc1/calc_compression_stats.rs:30-131: the error, or the cache
at the end, which is then saved, and the list of results.  The algorithm is checked first; then the cache is loaded, `cacheFile` being
its file, from an empty one; a failure to load is ignored. -/
inductive Outcome {S : Type} [DecidableEq S] (s : Setup S) (cacheFile : Option Buf) : Except CliError (Sizes × List (Path × StatsResult S)) → Prop where
  | refused (e : CliError) (h : validate s.opts.algorithm = .error e) : Outcome s cacheFile (.error e)
  | ran (tr : Trace S) (h : validate s.opts.algorithm = .ok ()) (hc : Complete s (load cacheFile []).1 tr) :
      Outcome s cacheFile (.ok (cacheAfter (load cacheFile []).1 tr, results tr))

/-! ## The statistics -/

/-- `sum` of `usize`: with overflow checks a panic (`none`), otherwise modulo `usizeMax + 1`. -/
def sumUsize (checks : Bool) (usizeMax : Nat) : List Nat → Nat → Option Nat
  | [], acc => some acc
  | x :: xs, acc =>
    if acc + x ≤ usizeMax then sumUsize checks usizeMax xs (acc + x)
    else if checks then none
    else sumUsize checks usizeMax xs ((acc + x) % (usizeMax + 1))

/-- `*counts.entry(m).or_insert(0) += 1`, calc_compression_stats_common.rs:212-217. -/
def bump {S : Type} [DecidableEq S] (m : S) : List (S × Nat) → List (S × Nat)
  | [] => [(m, 1)]
  | e :: es => if e.1 = m then (m, e.2 + 1) :: es else e :: bump m es

/-- The loop of calc_compression_stats_common.rs:210-218 for one of the maps. -/
def countMethods {S : Type} [DecidableEq S] (ms : List S) : List (S × Nat) := ms.foldl (fun es m => bump m es) []

/-- The stable sort of calc_compression_stats_common.rs:224 and 230: an element goes before those with the same or a smaller number. -/
def insertSorted {S : Type} (e : S × Nat) : List (S × Nat) → List (S × Nat)
  | [] => [e]
  | x :: xs => if x.2 ≤ e.2 then e :: x :: xs else x :: insertSorted e xs

/-- The sort, from the last element to the first. -/
def sortByCount {S : Type} (es : List (S × Nat)) : List (S × Nat) := es.foldr insertSorted []

/-- What `print_overall_statistics` prints, without ratios. -/
structure Overall (S : Type) where
  files : Nat
  originalUncompressed : Nat
  originalCompressed : Nat
  default : Nat
  api : Nat
  best : Nat
  savedDefault : Nat
  savedApi : Nat
  savedBest : Nat
  apiMatches : Nat
  bestMethods : List (S × Nat)
  apiMethods : List (S × Nat)

/-- The sizes of the results for the default settings, calc_compression_stats_common.rs:185-188; `none` is the panic. -/
def defaultSizes {S : Type} [DecidableEq S] (dflt : S) : List (StatsResult S) → Option (List Nat)
  | [] => some []
  | r :: rs => do
    let d ← findDefault dflt r.allResults
    let ds ← defaultSizes dflt rs
    pure (d.size :: ds)

/-- `print_overall_statistics`, calc_compression_stats_common.rs:162-330: `none` is a panic, `some none` the message that there are no files.
`order` and `order'` are the orders in which the two maps are read. -/
def overall {S : Type} [DecidableEq S] (checks : Bool) (usizeMax : Nat) (dflt : S) (order order' : List (S × Nat) → List (S × Nat))
    (results : List (StatsResult S)) : Option (Option (Overall S)) :=
  if results.isEmpty then some none
  else do
    let sum := fun l => sumUsize checks usizeMax l 0
    let best := fun (r : StatsResult S) => findBest usizeMax dflt r.allResults
    let uncompressed ← sum (results.map (·.originalUncompressed))
    let compressed ← sum (results.map (·.originalCompressed))
    let b ← sum (results.map fun r => (best r).size)
    let d ← (defaultSizes dflt results).bind sum
    let a ← sum (results.map (·.api.size))
    pure (some {
      files := results.length
      originalUncompressed := uncompressed
      originalCompressed := compressed
      default := d
      api := a
      best := b
      savedDefault := compressed - d
      savedApi := compressed - a
      savedBest := compressed - b
      apiMatches := (results.filter fun r => r.api.options = (best r).options).length
      bestMethods := (sortByCount (order (countMethods (results.map fun r => (best r).options)))).take 3
      apiMethods := (sortByCount (order' (countMethods (results.map (·.api.options))))).take 3 })

end Dlt.StatsCommand
