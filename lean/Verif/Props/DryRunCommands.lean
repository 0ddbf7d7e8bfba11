import Verif.Lemmas.DryRunEnds
/-!
# C106: the benchmark with its parallel dry run, the commands
-/

namespace Dlt.Props

open Dlt.Cache Dlt.DebugIo Dlt.DebugStats Dlt.DebugBench Dlt.DryRun
open Dlt.Dds Dlt.FileFormats Dlt.FileIo Dlt.FileIo.Prog Dlt.Cli
open Dlt.StatsCommand (Tape Causal CausalCodec CausalEstimator Parted front)

/-! ## The formats -/

theorem dryWorks1 (env : Env) (m : Machine) (useAll : Bool) (norm : Option Norm.Bc1.Heap) {data : Buf} (hB : data.length % 8 = 0) :
    DryWorks (DebugBench.bc1 env m useAll norm) 48 data := by
  cases norm with
  | none =>
    refine ⟨fun est out st ho => ?_, fun h out st => Bc1.transformAuto_hom h env m useAll data out _ st,
      fun est h data out len => (StatsCommand.bc1_causal env m useAll est h data out len).mono (by omega)⟩
    obtain ⟨o, s, r, h, _⟩ := C17_bc1_auto_reports_used env m est useAll data out st hB (by omega)
    exact ⟨o, s, r, h⟩
  | some hp =>
    refine ⟨fun est out st ho => ?_, fun {τ σ f est' est} h out st => ?_, StatsCommand.bc1_normalize_causal env m useAll hp⟩
    · obtain ⟨o, s, r, h, _⟩ := C50_auto_normalize hp m est useAll data out st hB (by omega)
      refine ⟨o, s, r.map fun d => ⟨d.decorr, d.split⟩, ?_⟩
      change autoNormalized hp m useAll est data out data.length st = _
      unfold autoNormalized
      rw [h]
      rfl
    · change autoNormalized hp m useAll est data out data.length (f st) = mapState f (autoNormalized hp m useAll est' data out data.length st)
      unfold autoNormalized
      rw [autoNormalize_hom h]
      rcases Norm.Bc1.autoNormalize hp m est' useAll data out data.length st with _ | ⟨o, s, r⟩ <;> rfl

theorem dryWorks2 (env : Env) (m : Machine) (useAll : Bool) {data : Buf} (hB : data.length % 16 = 0) :
    DryWorks (DebugBench.bc2 env m useAll) 16 data := by
  refine ⟨fun est out st ho => ?_, fun h out st => Bc2.transformAuto_hom h env m useAll data out _ st, StatsCommand.bc2_causal env m useAll⟩
  obtain ⟨o, s, r, h, _⟩ := C18_bc2_auto_reports_used env m est useAll data out st hB (by omega)
  exact ⟨o, s, r, h⟩

theorem dryWorks3 (env : Env) (m : Machine) (useAll : Bool) {data : Buf} (hB : data.length % 16 = 0) :
    DryWorks (DebugBench.bc3 env m useAll) 64 data := by
  refine ⟨fun est out st ho => ?_, fun h out st => Bc3.transformAuto_hom h env m useAll data out _ st, StatsCommand.bc3_causal env m useAll⟩
  obtain ⟨o, s, r, h, _⟩ := C19_bc3_auto_reports_used env m est useAll data out st hB (by omega)
  exact ⟨o, s, r, h⟩

theorem settles1 (env : Env) (hm : ∀ n, env.canAlloc n = true) (m : Machine) (useAll : Bool) {data : Buf} (hB : data.length % 8 = 0) :
    Settles (DebugBench.bc1 env m useAll none) data := fun _ h _ st ho =>
  let ⟨_, ha⟩ := h (data.length / 2)
  auto1 env hm m useAll ha hB ho st

theorem settles1n (env : Env) (x : Norm.Bc1.Heap) (hm : ∀ k n, x.canAlloc k n = true) (m : Machine) (useAll : Bool) {data : Buf}
    (hB : data.length % 8 = 0) : Settles (DebugBench.bc1 env m useAll (some x)) data := fun _ h _ st ho =>
  let ⟨_, ha⟩ := h (data.length / 2)
  auto1n x hm m useAll ha hB ho st

theorem settles2 (env : Env) (hm : ∀ n, env.canAlloc n = true) (m : Machine) (useAll : Bool) {data : Buf} (hB : data.length % 16 = 0) :
    Settles (DebugBench.bc2 env m useAll) data := fun _ h _ st ho =>
  let ⟨_, ha⟩ := h (data.length / 4)
  auto2 env hm m useAll ha hB ho st

theorem settles3 (env : Env) (hm : ∀ n, env.canAlloc n = true) (m : Machine) (useAll : Bool) {data : Buf} (hB : data.length % 16 = 0) :
    Settles (DebugBench.bc3 env m useAll) data := fun _ h _ st ho =>
  let ⟨_, ha⟩ := h (data.length / 4)
  auto3 env hm m useAll ha hB ho st

/-! ## The command -/

/-- What the dry run relies on: addresses of more than 32 bits and a release build, files of less than 4 GiB, an allocator that gives the
size requested, no two of the data compressed with the same hash, a zstd that undoes what it did, and a cache `files` that holds for the
data only what decompresses to them. `c` is the format. -/
structure ParallelSetting {S : Type} (s : Setup S) (c : BenchCodec S) (files : List Char → Option Buf) : Prop where
  wide : Wide s.pl
  release : s.pl.overflowChecks = false
  small : ∀ p ∈ s.entries, ∀ b, s.files p = some b → b.length < 2 ^ 32 ∧ b.length ≤ s.os.usizeMax
  heap : ∀ i, (s.heap i).Wf
  algorithm : s.opts.algorithm = .zstandard
  distinct : NoCollision s.hash (Seen c s.os s.files s.format s.entries)
  inverse : Inverse s.raw
  cache : Restorable s.raw s.hash (Seen c s.os s.files s.format s.entries) files

/-- What the command has done: `st` is a state of the dry run that began with the cache `files`. -/
structure DryRan {S : Type} (s : Setup S) (c : BenchCodec S) (table : List (String × S)) (files : List Char → Option Buf)
    (env : Answers) (rate : Nat → Nat → Nat) (st : DryRun.State) (plenty : Prop) : Prop where
  /-- The cache holds for the data only what decompresses to them, and all that it held before. -/
  faithful : Restorable s.raw s.hash (Seen c s.os s.files s.format s.entries) st.shared.files ∧
    ∀ k b, files (fileName k) = some b → st.shared.files (fileName k) = some b
  /-- The measured part then runs as with an empty cache. -/
  benched : env.heap.Wf → WholeWrites env → ∀ iterations warmup, iterations ≠ 0 → ∃ st' rs,
    run s.os (measured s c env rate iterations warmup) (afterDryRun s st) = ({ afterDryRun s st with st := st' }, some rs) ∧
    Benched c s.format table s.os s.raw s.hash env rate s.opts iterations warmup s.entries (afterDryRun s st) plenty st' rs

section
variable {S : Type} {s : Setup S} {c : BenchCodec S} {table : List (String × S)} {T : Buf → S → Buf} {B : Nat} {sizes : Sizes}
  {files : List Char → Option Buf} {env : Answers} {rate : Nat → Nat → Nat} {st : DryRun.State} {plenty : Prop}

theorem ParallelSetting.dry (h : ParallelSetting s c files) (hw : ∀ i p b, s.entries[i]? = some p → Found s.os s.files s.format p b →
    Works (s.codec i) (Seen c s.os s.files s.format s.entries) (textureOf b) (T (textureOf b)) ∧ DryWorks (s.codec i) B (textureOf b)) :
    DrySetting s (Seen c s.os s.files s.format s.entries) T B :=
  ⟨h.wide, h.release, h.small, h.heap, h.algorithm, hw⟩

theorem benched_measured {iterations warmup : Nat}
    (h : BenchSetting c s.format s.os s.pl s.raw s.hash env s.opts s.entries (afterDryRun s st)) (hit : iterations ≠ 0)
    (htab : c.scenarios = table)
    (hwk : ∀ p ∈ s.entries, ∀ b, Found s.os s.files s.format p b →
      Works c (Seen c s.os s.files s.format s.entries) (textureOf b) (T (textureOf b)))
    (hs : plenty → Unhindered env s.raw ∧ ∀ p ∈ s.entries, ∀ b, Found s.os s.files s.format p b →
      SearchSucceeds c s.lib s.hash s.opts.getEstimateLevel s.opts.getEstimateAlgorithm (textureOf b)) :
    ∃ st' rs, run s.os (measured s c env rate iterations warmup) (afterDryRun s st) = ({ afterDryRun s st with st := st' }, some rs) ∧
      Benched c s.format table s.os s.raw s.hash env rate s.opts iterations warmup s.entries (afterDryRun s st) plenty st' rs := by
  obtain ⟨st', rs, h1, hk, hx, _, ht, hu⟩ := benchLoop_spec (c := c) (rate := rate) h.wide h.release h.heap h.distinct h.inverse h.writes
    s.lib ⟨iterations, warmup, s.opts.getLevel, s.opts.getEstimateLevel, s.opts.algorithm, s.opts.getEstimateAlgorithm, false⟩
    h.algorithm (.inl hit) s.entries [] (afterDryRun s st) h.small h.cache hwk
  subst htab
  refine ⟨st', rs, h1, ?_, (ht rfl).mono (fun _ _ h => h) ?_, ?_, ?_, hk.faithful h.cache⟩
  · intro x hxm
    refine (hx x hxm).imp_right ?_
    rintro ⟨p, hp, b, hb, s, h2, h3, h4⟩
    refine ⟨p, hp, b, hb, s, h2, fun out ho => ?_, h4⟩
    rw [← hb.length] at ho ⊢
    rw [(hwk p hp b hb).transform out s ho, h3]
  · rintro p hp ⟨hpl, b, hb⟩
    obtain ⟨h2, h3⟩ := hs hpl
    exact ⟨h2, b, hb, h3 p hp b hb⟩
  · intro hpl
    obtain ⟨h2, h3⟩ := hs hpl
    exact (hu h2 h3).1
  · intro hpl hsv p hp b hb
    obtain ⟨h2, h3⟩ := hs hpl
    obtain ⟨h4, h5⟩ := (hu h2 h3).2 hsv p hp b hb
    refine ⟨h5, fun e he out x ho hxx => ?_⟩
    rw [← hb.length] at ho hxx
    rw [(hwk p hp b hb).transform out e.2 ho] at hxx
    cases hxx
    exact h4 e he

theorem dryRan_of (h : ParallelSetting s c files) {ok : Pc → Pc → Prop} (hr : Reached s ok sizes files st) (hfin : Finished s st)
    (hfail : ∀ d l a, .writeFailed d l a ∉ st.shared.made) (htab : c.scenarios = table)
    (hw : ∀ i p b, s.entries[i]? = some p → Found s.os s.files s.format p b →
      Works (s.codec i) (Seen c s.os s.files s.format s.entries) (textureOf b) (T (textureOf b)) ∧ DryWorks (s.codec i) B (textureOf b))
    (hwk : ∀ p ∈ s.entries, ∀ b, Found s.os s.files s.format p b →
      Works c (Seen c s.os s.files s.format s.entries) (textureOf b) (T (textureOf b)))
    (hs : plenty → Unhindered env s.raw ∧ ∀ p ∈ s.entries, ∀ b, Found s.os s.files s.format p b →
      SearchSucceeds c s.lib s.hash s.opts.getEstimateLevel s.opts.getEstimateAlgorithm (textureOf b)) :
    DryRan s c table files env rate st plenty := by
  obtain ⟨h1, h2⟩ := dry_faithful (h.dry hw) h.distinct h.inverse hr hfin.idle hfail h.cache
  exact ⟨⟨h1, h2⟩, fun hh hwr iterations warmup hit => benched_measured
    ⟨h.wide, h.release, h.small, hh, h.distinct, h.inverse, hwr, h.algorithm, h1⟩ hit htab hwk hs⟩

/-- After the dry run the cache has what the measured part will ask for with given settings, and it decompresses to the data. -/
def Populated (s : Setup S) (c : BenchCodec S) (table : List (String × S)) (st : DryRun.State) : Prop :=
  ∀ p ∈ s.entries, ∀ b, Found s.os s.files s.format p b →
    (∃ y, st.shared.files (fileName ⟨s.hash (textureOf b), s.opts.getLevel, .zstandard⟩) = some y ∧
      s.raw.decompress y (reckoned b) = some (textureOf b)) ∧
    ∀ e ∈ table, ∀ out x, out.length = reckoned b → c.transform (textureOf b) out (reckoned b) e.2 = some x →
      ∃ y, st.shared.files (fileName ⟨s.hash x, s.opts.getLevel, .zstandard⟩) = some y ∧ s.raw.decompress y (reckoned b) = some x

theorem populated_of (h : ParallelSetting s c files) (hr : Reached s NoErrors sizes files st) (hfin : Finished s st)
    (hfail : ∀ d l a, .writeFailed d l a ∉ st.shared.made) (htab : ∀ i, (s.codec i).scenarios = table)
    (hw : ∀ i p b, s.entries[i]? = some p → Found s.os s.files s.format p b →
      Works (s.codec i) (Seen c s.os s.files s.format s.entries) (textureOf b) (T (textureOf b)) ∧ DryWorks (s.codec i) B (textureOf b))
    (hwk : ∀ p ∈ s.entries, ∀ b, Found s.os s.files s.format p b →
      Works c (Seen c s.os s.files s.format s.entries) (textureOf b) (T (textureOf b)))
    (hl : Ample s.lib) (he : Estimates s.lib s.opts.getEstimateAlgorithm s.opts.getEstimateLevel) (hm : ∀ i k n, (s.heap i k n).isSome)
    (hset : ∀ i p b, Found s.os s.files s.format p b → Settles (s.codec i) (textureOf b)) : Populated s c table st := by
  obtain ⟨h1, _⟩ := dry_faithful (h.dry hw) h.distinct h.inverse hr hfin.idle hfail h.cache
  intro p hp b hb
  obtain ⟨h2, i, h3⟩ := dry_populated (h.dry hw) hr hfin hp hb hl he hm (fun i => hset i p b hb)
  have hwb := hwk p hp b hb
  constructor
  · obtain ⟨y, hy⟩ := Option.ne_none_iff_exists'.1 h2
    refine ⟨y, hy, ?_⟩
    rw [← hb.length]
    exact h1 _ hwb.given _ y hy
  · intro e he out x ho hx
    rw [← hb.length] at ho hx ⊢
    rw [hwb.transform out e.2 ho] at hx
    cases hx
    obtain ⟨y, hy⟩ := Option.ne_none_iff_exists'.1 (h3 e (by rw [htab i]; exact he))
    refine ⟨y, hy, ?_⟩
    rw [← hwb.length e.2]
    exact h1 _ (hwb.shown e.2) _ y hy

/-- What holds for the dry run of a command whose cache is `files` when it begins. `plenty` says that the measured part does not run out
of anything, `plentyDry` the same for the dry run. -/
structure Parallel {S : Type} (s : Setup S) (c : BenchCodec S) (table : List (String × S)) (sizes : Sizes) (files : List Char → Option Buf)
    (env : Answers) (rate : Nat → Nat → Nat) (plenty plentyDry : Prop) : Prop where
  /-- No thread panics, however its calls end. -/
  threads : ∀ i view, calls s i view ≠ none
  /-- No call panics. -/
  calls : ∀ ok st, Reached s ok sizes files st → ∀ i x, (st.threads i).now ≠ some (x, .panicked)
  /-- When the dry run is over, however the steps of the threads were interleaved and whatever failed except for writes that stopped
  half-way, the cache is faithful and the benchmark works. -/
  ran : ∀ ok st, Reached s ok sizes files st → Finished s st → (∀ d l a, .writeFailed d l a ∉ st.shared.made) →
    DryRan s c table files env rate st plenty
  /-- If nothing fails, the cache then has what is needed. -/
  populated : plentyDry → ∀ st, Reached s NoErrors sizes files st → Finished s st → (∀ d l a, .writeFailed d l a ∉ st.shared.made) →
    Populated s c table st
  /-- The dry run can always go on to its end: no thread waits for another. -/
  ends : (∀ l d, (s.raw.compress l d).isSome) → ∀ st, Reached s NoErrors sizes files st →
    (∀ d l a, .writeFailed d l a ∉ st.shared.made) → ∃ st', Leads s NoErrors st st' ∧ Finished s st' ∧
      ∀ d l a, .writeFailed d l a ∉ st'.shared.made

theorem parallel_of {plentyDry : Prop} (h : ParallelSetting s c files) (htab : c.scenarios = table) (htab' : ∀ i, (s.codec i).scenarios = table)
    (hw : ∀ i p b, s.entries[i]? = some p → Found s.os s.files s.format p b →
      Works (s.codec i) (Seen c s.os s.files s.format s.entries) (textureOf b) (T (textureOf b)) ∧ DryWorks (s.codec i) B (textureOf b))
    (hwk : ∀ p ∈ s.entries, ∀ b, Found s.os s.files s.format p b →
      Works c (Seen c s.os s.files s.format s.entries) (textureOf b) (T (textureOf b)))
    (hs : plenty → Unhindered env s.raw ∧ ∀ p ∈ s.entries, ∀ b, Found s.os s.files s.format p b →
      SearchSucceeds c s.lib s.hash s.opts.getEstimateLevel s.opts.getEstimateAlgorithm (textureOf b))
    (hd : plentyDry → Ample s.lib ∧ Estimates s.lib s.opts.getEstimateAlgorithm s.opts.getEstimateLevel ∧
      (∀ i k n, (s.heap i k n).isSome) ∧ ∀ i p b, Found s.os s.files s.format p b → Settles (s.codec i) (textureOf b)) :
    Parallel s c table sizes files env rate plenty plentyDry where
  threads i view := by
    obtain ⟨l, hl, _⟩ := calls_total (h.dry hw) i view
    rw [hl]
    simp
  calls ok st hr i x hx := ((threads_fit (h.dry hw) hr i).2 x _ hx).2 rfl
  ran ok st hr hfin hfail := dryRan_of h hr hfin hfail htab hw hwk hs
  populated hpl st hr hfin hfail := by
    obtain ⟨h1, h2, h3, h4⟩ := hd hpl
    exact populated_of h hr hfin hfail htab' hw hwk h1 h2 h3 h4
  ends hc st hr hfail := by
    obtain ⟨st', h1, h2, h3⟩ := dry_can_end (h.dry hw) hc ⟨hr, hfail⟩
    exact ⟨st', h1, h3, h2.written⟩

end

section
variable (os : Os) (pl : Platform) (lib : Lib) (hl : Ample lib) (raw : Raw) (hash : Buf → BitVec 128) (opts : AlgorithmOptions)
  (fs : Path → Option Buf) (entries : List Path) (heap : Nat → Heap) (menv : Nat → Env) (menv' : Env) (useAll : Bool)
  (env : Answers) (rate : Nat → Nat → Nat) (sizes : Sizes) (files : List Char → Option Buf)
include hl

/-- **C106** (BC1): the dry run with one thread for each file is safe, and the measured part after it works. -/
theorem C106_bc1 (norm : Option (Nat → Norm.Bc1.Heap)) (norm' : Option Norm.Bc1.Heap)
    (h : ParallelSetting (setup1 os pl lib raw hash opts fs entries heap menv useAll norm) (DebugBench.bc1 menv' pl.m useAll norm') files) :
    Parallel (setup1 os pl lib raw hash opts fs entries heap menv useAll norm) (DebugBench.bc1 menv' pl.m useAll norm')
      [("NoSplit/None", ⟨.none, false⟩), ("NoSplit/YCoCg1", ⟨.v1, false⟩), ("Split/None", ⟨.none, true⟩), ("Split/YCoCg1", ⟨.v1, true⟩)]
      sizes files env rate
      (Unhindered env raw ∧ Estimates lib opts.getEstimateAlgorithm opts.getEstimateLevel ∧ (norm' = none → ∀ n, menv'.canAlloc n = true) ∧
        ∀ x, norm' = some x → ∀ k n, x.canAlloc k n = true)
      (Estimates lib opts.getEstimateAlgorithm opts.getEstimateLevel ∧ (∀ i k n, (heap i k n).isSome) ∧
        (norm = none → ∀ i n, (menv i).canAlloc n = true) ∧ ∀ x, norm = some x → ∀ i k n, (x i).canAlloc k n = true) := by
  refine parallel_of (T := fun d s => Bc1.encode pl.m.endian s d) (B := 48) h rfl (fun _ => rfl) ?_ ?_ ?_ ?_
  · intro i p b hi hb
    have hwi := works1 (os := os) (files := fs) (entries := entries) (menv i) pl.m useAll (norm.map fun x => x i)
      (List.mem_of_getElem? hi) hb
    exact ⟨hwi, dryWorks1 _ _ _ _ hb.blocks⟩
  · intro p hp b hb
    exact works1 menv' pl.m useAll norm' hp hb
  · rintro ⟨hu, he, hm, hn⟩
    refine ⟨hu, fun p hp b hb => ?_⟩
    cases norm' with
    | none => exact search1 menv' (hm rfl) pl.m useAll hl hash he hb.blocks
    | some x => exact search1n menv' x (hn x rfl) pl.m useAll hl hash he hb.blocks
  · rintro ⟨he, hh, hm, hn⟩
    refine ⟨hl, he, hh, fun i p b hb => ?_⟩
    cases norm with
    | none => exact settles1 (menv i) (hm rfl i) pl.m useAll hb.blocks
    | some x => exact settles1n (menv i) (x i) (hn x rfl i) pl.m useAll hb.blocks

/-- **C106** (BC2): the same. -/
theorem C106_bc2 (h : ParallelSetting (setup2 os pl lib raw hash opts fs entries heap menv useAll) (DebugBench.bc2 menv' pl.m useAll) files) :
    Parallel (setup2 os pl lib raw hash opts fs entries heap menv useAll) (DebugBench.bc2 menv' pl.m useAll)
      [("NoSplit/None", ⟨.none, false⟩), ("NoSplit/YCoCg1", ⟨.v1, false⟩), ("Split/None", ⟨.none, true⟩), ("Split/YCoCg1", ⟨.v1, true⟩)]
      sizes files env rate
      (Unhindered env raw ∧ Estimates lib opts.getEstimateAlgorithm opts.getEstimateLevel ∧ ∀ n, menv'.canAlloc n = true)
      (Estimates lib opts.getEstimateAlgorithm opts.getEstimateLevel ∧ (∀ i k n, (heap i k n).isSome) ∧
        ∀ i n, (menv i).canAlloc n = true) := by
  refine parallel_of (T := fun d s => Bc2.encode pl.m.endian s d) (B := 16) h rfl (fun _ => rfl) ?_ ?_ ?_ ?_
  · intro i p b hi hb
    exact ⟨works2 (menv i) pl.m useAll (List.mem_of_getElem? hi) hb, dryWorks2 _ _ _ hb.blocks⟩
  · intro p hp b hb
    exact works2 menv' pl.m useAll hp hb
  · rintro ⟨hu, he, hm⟩
    exact ⟨hu, fun p hp b hb => search2 menv' hm pl.m useAll hl hash he hb.blocks⟩
  · rintro ⟨he, hh, hm⟩
    exact ⟨hl, he, hh, fun i p b hb => settles2 (menv i) (hm i) pl.m useAll hb.blocks⟩

/-- **C106** (BC3): the same, with eight scenarios. -/
theorem C106_bc3 (h : ParallelSetting (setup3 os pl lib raw hash opts fs entries heap menv useAll) (DebugBench.bc3 menv' pl.m useAll) files) :
    Parallel (setup3 os pl lib raw hash opts fs entries heap menv useAll) (DebugBench.bc3 menv' pl.m useAll)
      [("NoSplit/None", { splitAlpha := false, splitColour := false, decorr := .none }),
       ("NoSplit/YCoCg1", { splitAlpha := false, splitColour := false, decorr := .v1 }),
       ("Split/None", { splitAlpha := false, splitColour := true, decorr := .none }),
       ("Split/YCoCg1", { splitAlpha := false, splitColour := true, decorr := .v1 }),
       ("SplitAlpha/None", { splitAlpha := true, splitColour := false, decorr := .none }),
       ("SplitAlpha/YCoCg1", { splitAlpha := true, splitColour := false, decorr := .v1 }),
       ("SplitBoth/None", { splitAlpha := true, splitColour := true, decorr := .none }),
       ("SplitBoth/YCoCg1", { splitAlpha := true, splitColour := true, decorr := .v1 })]
      sizes files env rate
      (Unhindered env raw ∧ Estimates lib opts.getEstimateAlgorithm opts.getEstimateLevel ∧ ∀ n, menv'.canAlloc n = true)
      (Estimates lib opts.getEstimateAlgorithm opts.getEstimateLevel ∧ (∀ i k n, (heap i k n).isSome) ∧
        ∀ i n, (menv i).canAlloc n = true) := by
  refine parallel_of (T := fun d s => Bc3.encode pl.m.endian s d) (B := 64) h rfl (fun _ => rfl) ?_ ?_ ?_ ?_
  · intro i p b hi hb
    exact ⟨works3 (menv i) pl.m useAll (List.mem_of_getElem? hi) hb, dryWorks3 _ _ _ hb.blocks⟩
  · intro p hp b hb
    exact works3 menv' pl.m useAll hp hb
  · rintro ⟨hu, he, hm⟩
    exact ⟨hu, fun p hp b hb => search3 menv' hm pl.m useAll hl hash he hb.blocks⟩
  · rintro ⟨he, hh, hm⟩
    exact ⟨hl, he, hh, fun i p b hb => settles3 (menv i) (hm i) pl.m useAll hb.blocks⟩

end

/-! ## A case that meets the hypotheses -/

/-- The files of `exampleWorld`, with empty caches. -/
def exampleDryRun : Setup ColourSettings :=
  setup1 openOs somePlatform exampleLib exampleRaw exampleHash {} exampleWorld.files [["d", "a.dds"], ["d", "b.txt"]]
    (fun _ => exampleAnswers.heap) (fun _ => ⟨fun _ => true, 2 ^ 64 - 1⟩) false none

theorem exampleParallel : ParallelSetting exampleDryRun (DebugBench.bc1 ⟨fun _ => true, 2 ^ 64 - 1⟩ somePlatform.m false none) fun _ => none := by
  have h := exampleSetting.1
  exact ⟨h.wide, h.release, h.small, fun _ => h.heap, rfl, h.distinct, h.inverse, fun x _ level b hb => nomatch hb⟩

/-- The dry run can end, and then the cache has the compressed texture. -/
example : ∃ st, Reached exampleDryRun NoErrors [] (fun _ => none) st ∧ Finished exampleDryRun st ∧
    st.shared.files (fileName ⟨exampleHash (textureOf smallFile), ({} : AlgorithmOptions).getLevel, .zstandard⟩) ≠ none := by
  have hl : Ample exampleLib := ⟨fun _ _ _ _ => rfl, fun i j h => Nat.add_le_add_right h 64⟩
  have h := C106_bc1 openOs somePlatform exampleLib hl exampleRaw exampleHash {} exampleWorld.files [["d", "a.dds"], ["d", "b.txt"]]
    (fun _ => exampleAnswers.heap) (fun _ => ⟨fun _ => true, 2 ^ 64 - 1⟩) ⟨fun _ => true, 2 ^ 64 - 1⟩ false exampleAnswers
    (fun n t => n * 1000 / t) [] (fun _ => none) none none exampleParallel
  obtain ⟨st, h1, h2, h3⟩ := h.ends (fun _ _ => rfl) _ .start (by simp)
  have hr : Reached exampleDryRun NoErrors [] (fun _ => none) st := by
    have go : ∀ {a b}, Leads exampleDryRun NoErrors a b → Reached exampleDryRun NoErrors [] (fun _ => none) a →
        Reached exampleDryRun NoErrors [] (fun _ => none) b := by
      intro a b hab
      induction hab with
      | refl => exact id
      | head hs _ ih => exact fun ha => ih (.step ha hs)
    exact go h1 .start
  obtain ⟨⟨y, hy, _⟩, _⟩ := h.populated ⟨exampleSetting.2.2, fun _ _ _ => rfl, fun _ _ _ => rfl, fun _ h => nomatch h⟩ st hr h2 h3 _
    (by simp [setup1]) smallFile exampleFound
  exact ⟨st, hr, h2, fun hn => nomatch hn.symm.trans hy⟩

/-- What the thread of `a.dds` does if all its calls end well: it asks for four sizes, then compresses the recommended transform, four
others and the texture; the thread of `b.txt` does nothing. -/
example : (calls exampleDryRun 0 fun _ => some 5).map (fun l => l.map fun c => match c with
      | .size _ _ _ => 0
      | .compress d _ _ => d.length) = some [0, 0, 0, 0, 8, 8, 8, 8, 8, 8] ∧
    (calls exampleDryRun 1 fun _ => some 5).map List.length = some 0 ∧
    (calls exampleDryRun 0 fun k => if k = 5 then none else some 5).map List.length = some 6 := by decide +kernel

end Dlt.Props
