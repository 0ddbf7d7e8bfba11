import Verif.Props.DebugBench
/-!
# C73: the benchmark commands of the three formats
-/

namespace Dlt.Props

open Dlt.Cache Dlt.DebugIo Dlt.DebugStats Dlt.DebugBench
open Dlt.Dds Dlt.FileFormats Dlt.FileIo Dlt.FileIo.Prog Dlt.Cli

/-! ## The searches -/

/-- The estimator answers for all data. -/
def Estimates (lib : Lib) (a : Algorithm) (level : BitVec 32) : Prop := ∀ x, trueSize lib a level x ≠ none

theorem estimate_ok {lib : Lib} (hl : Ample lib) {a : Algorithm} {level : BitVec 32} {inner : Estimator Unit CliError}
    (hc : createSizeEstimator lib a level = .ok inner) (he : Estimates lib a level) (hash : Buf → BitVec 128) (n : Nat)
    (x : Buf) (hx : x.length ≤ n) (cache : Sizes) :
    ∃ k, ((cachedEstimator hash level a inner).estimate cache x (neededMemory lib a n)).2 = .ok k := by
  unfold cachedEstimator
  dsimp only
  rcases hg : SharedCache.get cache ⟨hash x, level, a⟩ with ⟨c', _ | k⟩
  · obtain ⟨r, h1, h2⟩ := (created lib hl a level inner hc).2 () x _ (neededMemory_mono hl a hx)
    rw [h1]
    rcases r with e | k
    · exact absurd h2.symm (he x)
    · exact ⟨k, rfl⟩
  · exact ⟨k, rfl⟩

theorem estimator_created {lib : Lib} {a : Algorithm} {level : BitVec 32} (he : Estimates lib a level) :
    ∃ inner : Estimator Unit CliError, createSizeEstimator lib a level = .ok inner := by
  rcases h : createSizeEstimator (σ := Unit) lib a level with e | inner
  · exact absurd (not_created lib a level e h []) (he [])
  · exact ⟨inner, rfl⟩

theorem search_of_auto {S : Type} {c : BenchCodec S} {lib : Lib} {hash : Buf → BitVec 128} {level : BitVec 32} {a : Algorithm}
    {data : Buf} (he : Estimates lib a level)
    (h : ∀ inner buf (sizes : Sizes), createSizeEstimator lib a level = .ok inner → buf.length = data.length →
      ∃ o sizes' s, c.auto (cachedEstimator hash level a inner) data buf data.length sizes = some (o, sizes', .ok s)) :
    SearchSucceeds c lib hash level a data := by
  intro buf sizes hb
  obtain ⟨inner, hi⟩ := estimator_created he
  obtain ⟨o, sizes', s, h1⟩ := h inner buf sizes hi hb
  refine ⟨sizes', s, ?_⟩
  unfold determineBest
  rw [hi]
  dsimp only
  rw [h1]
  rfl

/-- An estimator that needs `need` bytes for data of `n` bytes and then answers for all data that are not longer. -/
structure Answering {σ : Type} (est : Estimator σ CliError) (n need : Nat) : Prop where
  maxSize : ∀ st, est.maxSize st n = (st, .ok need)
  estimate : ∀ x st, x.length ≤ n → ∃ k, (est.estimate st x need).2 = .ok k

theorem answering_cached {lib : Lib} (hl : Ample lib) (hash : Buf → BitVec 128) {level : BitVec 32} {a : Algorithm}
    (he : Estimates lib a level) {inner : Estimator Unit CliError} (hi : createSizeEstimator lib a level = .ok inner) (n : Nat) :
    Answering (σ := Sizes) (cachedEstimator hash level a inner) n (neededMemory lib a n) := by
  refine ⟨fun sizes => ?_, fun x st hx => estimate_ok hl hi he hash _ x hx st⟩
  unfold cachedEstimator
  dsimp only
  rw [(created lib hl a level inner hi).1]

theorem answering_plain {lib : Lib} (hl : Ample lib) {level : BitVec 32} {a : Algorithm}
    (he : Estimates lib a level) {inner : Estimator Unit CliError} (hi : createSizeEstimator lib a level = .ok inner) (n : Nat) :
    Answering inner n (neededMemory lib a n) := by
  refine ⟨fun st => (created lib hl a level inner hi).1 st n, fun x st hx => ?_⟩
  obtain ⟨r, h1, h2⟩ := (created lib hl a level inner hi).2 st x _ (neededMemory_mono hl a hx)
  rw [h1]
  rcases r with e | k
  · exact absurd h2.symm (he x)
  · exact ⟨k, rfl⟩

section
variable {σ : Type} {est : Estimator σ CliError} {need : Nat} {data buf : Buf}

theorem auto1 (env : Env) (hm : ∀ n, env.canAlloc n = true) (m : Machine) (useAll : Bool) (h : Answering est (data.length / 2) need)
    (hB : data.length % 8 = 0) (hb : buf.length = data.length) (st : σ) :
    ∃ o st' s, Bc1.transformAuto env m est useAll data buf data.length st = some (o, st', .ok s) := by
  obtain ⟨st2, h5⟩ := ask_ok est need ((Bc1.testOrder useAll).flatMap (shown1 m data buf)) st (by
      intro x hx st
      obtain ⟨s, _, hx⟩ := List.mem_flatMap.1 hx
      refine h.estimate x st ?_
      rw [shown1_eq m hB (by omega)] at hx
      simp only [List.mem_cons, List.not_mem_nil, or_false] at hx
      subst hx
      simp only [slice, List.length_take]
      omega)
  obtain ⟨o, s, h6⟩ := (C22_bc1_estimator_failures env m est useAll data buf st hB
    (by omega)).2.2.1 _ _ st2 (h.maxSize st) (.inr (hm _)) h5
  exact ⟨o, st2, s, h6⟩

/-- The search that normalizes succeeds too. -/
theorem auto1n (h : Norm.Bc1.Heap) (hm : ∀ k n, h.canAlloc k n = true) (m : Machine) (useAll : Bool)
    (ha : Answering est (data.length / 2) need) (hB : data.length % 8 = 0) (hb : buf.length = data.length) (st : σ) :
    ∃ o st' s, autoNormalized h m useAll est data buf data.length st = some (o, st', .ok s) := by
  suffices hs : ∃ o st' s, Norm.Bc1.autoNormalize h m est useAll data buf data.length st =
      some (o, st', .ok s) by
    obtain ⟨o, sizes', s, hs⟩ := hs
    unfold autoNormalized
    rw [hs]
    exact ⟨_, _, _, rfl⟩
  obtain ⟨n, hd⟩ : ∃ n, data.length = n * 8 := ⟨data.length / 8, by omega⟩
  have body : ∀ comp (st : σ), ∃ out' st' s, Norm.Bc1.autoBody h m est useAll data buf data.length comp st =
      some (out', st', .ok s) := by
    intro comp st
    unfold Norm.Bc1.autoBody
    rw [hd, Norm.Bc1.allModes_fresh h hd, ← hd]
    simp only [Option.bind_eq_bind, Option.bind_some]
    by_cases hany : Norm.Bc1.someNorm data n = true
    · rw [if_pos hany, if_pos (by simp [hm])]
      obtain ⟨s0, s1, s2, e0, e1, e2, _, hc⟩ := Norm.Bc1.candidates_form m useAll h hd
      simp only [List.getElem?_cons_zero, List.getElem?_cons_succ, Option.bind_some]
      rw [hd, e0, e1, e2, ← hd]
      simp only [Option.bind_some]
      rw [if_pos (hm _ _)]
      obtain ⟨w, st', best, t1, t2, _⟩ := Norm.Bc1.testLoop_total m est comp
        (Norm.Bc1.candidates useAll [s0, s1, s2]) (h.buf 7 (data.length / 2)) st .default h.usizeMax
        (n := n) (fun c hcm => by
          obtain ⟨x, rest, _, hx⟩ := hc c hcm
          exact ⟨_, rest, Norm.Bc1.tested_length hd x, hx⟩)
        (by rw [Norm.Bc1.Heap.buf_length]; omega)
      rw [← hd] at t1
      rw [t1]
      simp only [Option.bind_some]
      obtain ⟨out', work', f1, _⟩ := C50_normalize_transform m data buf w best hB (by omega) (by omega)
      rw [f1]
      exact ⟨out', st', best, rfl⟩
    · rw [if_neg hany]
      obtain ⟨o, st2, s, h6⟩ := auto1 ⟨h.canAlloc 8, h.usizeMax⟩ (fun n => hm _ n) m useAll ha hB hb st
      rw [h6]
      exact ⟨o, st2, _, rfl⟩
  unfold Norm.Bc1.autoNormalize
  rw [if_pos (by simp [hm]), ha.maxSize]
  dsimp only
  split
  · exact body 0 st
  · rw [if_pos (hm _ _)]
    exact body _ st

theorem auto2 (env : Env) (hm : ∀ n, env.canAlloc n = true) (m : Machine) (useAll : Bool) (h : Answering est (data.length / 4) need)
    (hB : data.length % 16 = 0) (hb : buf.length = data.length) (st : σ) :
    ∃ o st' s, Bc2.transformAuto env m est useAll data buf data.length st = some (o, st', .ok s) := by
  obtain ⟨st2, h5⟩ := ask_ok est need ((Bc2.testOrder useAll).flatMap (shown2 m data buf)) st (by
      intro x hx st
      obtain ⟨s, _, hx⟩ := List.mem_flatMap.1 hx
      refine h.estimate x st ?_
      rw [shown2_eq m hB (by omega)] at hx
      simp only [List.mem_cons, List.not_mem_nil, or_false] at hx
      subst hx
      simp only [slice, List.length_take]
      omega)
  obtain ⟨o, s, h6⟩ := (C22_bc2_estimator_failures env m est useAll data buf st hB
    (by omega)).2.2.1 _ _ st2 (h.maxSize st) (.inr (hm _)) h5
  exact ⟨o, st2, s, h6⟩

theorem auto3 (env : Env) (hm : ∀ n, env.canAlloc n = true) (m : Machine) (useAll : Bool) (h : Answering est (data.length / 4) need)
    (hB : data.length % 16 = 0) (hb : buf.length = data.length) (st : σ) :
    ∃ o st' s, Bc3.transformAuto env m est useAll data buf data.length st = some (o, st', .ok s) := by
  obtain ⟨st2, h5⟩ := ask_ok est need ((Bc3.testOrder useAll).flatMap (shown3 m data buf)) st (by
      intro x hx st
      obtain ⟨s, _, hx⟩ := List.mem_flatMap.1 hx
      refine h.estimate x st ?_
      rw [shown3_eq m hB (by omega)] at hx
      simp only [List.mem_cons, List.not_mem_nil, or_false] at hx
      rcases hx with rfl | rfl <;> simp only [slice, List.length_take] <;> omega)
  obtain ⟨o, s, h6⟩ := (C22_bc3_estimator_failures env m est useAll data buf st hB
    (by omega)).2.2.1 _ _ st2 (h.maxSize st) (.inr (hm _)) h5
  exact ⟨o, st2, s, h6⟩

end

theorem search1 (env : Env) (hm : ∀ n, env.canAlloc n = true) (m : Machine) (useAll : Bool) {lib : Lib} (hl : Ample lib)
    (hash : Buf → BitVec 128) {level : BitVec 32} {a : Algorithm} (he : Estimates lib a level) {data : Buf} (hB : data.length % 8 = 0) :
    SearchSucceeds (DebugBench.bc1 env m useAll none) lib hash level a data :=
  search_of_auto he fun _ _ sizes hi hb => auto1 env hm m useAll (answering_cached hl hash he hi _) hB hb sizes

theorem search1n (env : Env) (h : Norm.Bc1.Heap) (hm : ∀ k n, h.canAlloc k n = true) (m : Machine) (useAll : Bool) {lib : Lib}
    (hl : Ample lib) (hash : Buf → BitVec 128) {level : BitVec 32} {a : Algorithm} (he : Estimates lib a level) {data : Buf}
    (hB : data.length % 8 = 0) :
    SearchSucceeds (DebugBench.bc1 env m useAll (some h)) lib hash level a data :=
  search_of_auto he fun _ _ sizes hi hb => auto1n h hm m useAll (answering_cached hl hash he hi _) hB hb sizes

theorem search2 (env : Env) (hm : ∀ n, env.canAlloc n = true) (m : Machine) (useAll : Bool) {lib : Lib} (hl : Ample lib)
    (hash : Buf → BitVec 128) {level : BitVec 32} {a : Algorithm} (he : Estimates lib a level) {data : Buf} (hB : data.length % 16 = 0) :
    SearchSucceeds (DebugBench.bc2 env m useAll) lib hash level a data :=
  search_of_auto he fun _ _ sizes hi hb => auto2 env hm m useAll (answering_cached hl hash he hi _) hB hb sizes

theorem search3 (env : Env) (hm : ∀ n, env.canAlloc n = true) (m : Machine) (useAll : Bool) {lib : Lib} (hl : Ample lib)
    (hash : Buf → BitVec 128) {level : BitVec 32} {a : Algorithm} (he : Estimates lib a level) {data : Buf} (hB : data.length % 16 = 0) :
    SearchSucceeds (DebugBench.bc3 env m useAll) lib hash level a data :=
  search_of_auto he fun _ _ sizes hi hb => auto3 env hm m useAll (answering_cached hl hash he hi _) hB hb sizes

/-! ## The formats work -/

theorem works_of {S : Type} {c : BenchCodec S} {B : Nat} {F G : S → Buf → Buf} (hF : ∀ s, Implements B (fun i o l => c.transform i o l s) (F s))
    (hG : ∀ s, Implements B (fun i o l => c.untransform i o l s) (G s)) (hGF : ∀ s data, data.length % B = 0 → G s (F s data) = data)
    {data : Buf} (hB : data.length % B = 0) {D : Buf → Prop} (hD : D data)
    (hT : ∀ out s x, out.length = data.length → c.transform data out data.length s = some x → D x)
    (hauto : ∀ (est : Estimator Sizes CliError) out sizes, out.length = data.length → ∃ o sizes' r, c.auto est data out data.length sizes = some (o, sizes', r)) :
    Works c D data fun s => F s data := by
  have ht : ∀ out s, out.length = data.length → c.transform data out data.length s = some (F s data) := by
    intro out s ho
    have h := (hF s data out hB (by omega)).2
    dsimp only at h
    rw [List.drop_of_length_le (by omega), List.append_nil] at h
    exact h
  refine ⟨ht, ?_, fun s => (hF s data data hB (Nat.le_refl _)).1, hD, fun s => hT data s _ rfl (ht data s rfl), hauto⟩
  intro out s ho
  have hl := (hF s data data hB (Nat.le_refl _)).1
  have h := (hG s (F s data) out (by rw [hl]; exact hB) (by omega)).2
  dsimp only at h
  rw [hl, hGF s data hB, List.drop_of_length_le (by omega), List.append_nil] at h
  exact h

/-- The data that the benchmark compresses: the textures of the entries and their transforms. -/
def Seen {S : Type} (c : BenchCodec S) (os : Os) (files : Path → Option Buf) (f : DebugIo.Format) (entries : List Path) (x : Buf) : Prop :=
  ∃ p ∈ entries, ∃ b, Found os files f p b ∧ (x = textureOf b ∨ ∃ out s, out.length = (textureOf b).length ∧
    c.transform (textureOf b) out (textureOf b).length s = some x)

section
variable {os : Os} {files : Path → Option Buf} {entries : List Path} {p : Path} {b : Buf}

theorem works1 (env : Env) (m : Machine) (useAll : Bool) (norm : Option Norm.Bc1.Heap) (hp : p ∈ entries) (hb : Found os files .bc1 p b) :
    Works (DebugBench.bc1 env m useAll norm) (Seen (DebugBench.bc1 env m useAll norm) os files .bc1 entries) (textureOf b)
      fun s => Bc1.encode m.endian s (textureOf b) := by
  have hB : (textureOf b).length % 8 = 0 := hb.blocks
  refine works_of (c := DebugBench.bc1 env m useAll norm) (Bc1.transform_impl m) (Bc1.untransform_impl m) (Bc1.decode_encode m.endian) hB
    ⟨p, hp, b, hb, .inl rfl⟩ (fun out s x ho hx => ⟨p, hp, b, hb, .inr ⟨out, s, ho, hx⟩⟩) ?_
  intro est out sizes ho
  cases norm with
  | none =>
    obtain ⟨o, s, r, h, _⟩ := C17_bc1_auto_reports_used env m est useAll (textureOf b) out sizes hB (by omega)
    exact ⟨o, s, r, h⟩
  | some hp =>
    obtain ⟨o, s, r, h, _⟩ := C50_auto_normalize hp m est useAll (textureOf b) out sizes hB (by omega)
    refine ⟨o, s, r.map fun d => ⟨d.decorr, d.split⟩, ?_⟩
    change autoNormalized hp m useAll est (textureOf b) out (textureOf b).length sizes = _
    unfold autoNormalized
    rw [h]
    rfl

theorem works2 (env : Env) (m : Machine) (useAll : Bool) (hp : p ∈ entries) (hb : Found os files .bc2 p b) :
    Works (DebugBench.bc2 env m useAll) (Seen (DebugBench.bc2 env m useAll) os files .bc2 entries) (textureOf b)
      fun s => Bc2.encode m.endian s (textureOf b) := by
  have hB : (textureOf b).length % 16 = 0 := hb.blocks
  refine works_of (c := DebugBench.bc2 env m useAll) (Bc2.transform_impl m) (Bc2.untransform_impl m) (Bc2.decode_encode m.endian) hB
    ⟨p, hp, b, hb, .inl rfl⟩ (fun out s x ho hx => ⟨p, hp, b, hb, .inr ⟨out, s, ho, hx⟩⟩) ?_
  intro est out sizes ho
  obtain ⟨o, s, r, h, _⟩ := C18_bc2_auto_reports_used env m est useAll (textureOf b) out sizes hB (by omega)
  exact ⟨o, s, r, h⟩

theorem works3 (env : Env) (m : Machine) (useAll : Bool) (hp : p ∈ entries) (hb : Found os files .bc3 p b) :
    Works (DebugBench.bc3 env m useAll) (Seen (DebugBench.bc3 env m useAll) os files .bc3 entries) (textureOf b)
      fun s => Bc3.encode m.endian s (textureOf b) := by
  have hB : (textureOf b).length % 16 = 0 := hb.blocks
  refine works_of (c := DebugBench.bc3 env m useAll) (Bc3.transform_impl m) (Bc3.untransform_impl m) (Bc3.decode_encode m.endian) hB
    ⟨p, hp, b, hb, .inl rfl⟩ (fun out s x ho hx => ⟨p, hp, b, hb, .inr ⟨out, s, ho, hx⟩⟩) ?_
  intro est out sizes ho
  obtain ⟨o, s, r, h, _⟩ := C19_bc3_auto_reports_used env m est useAll (textureOf b) out sizes hB (by omega)
  exact ⟨o, s, r, h⟩

end

/-! ## The commands -/

/-- What the command relies on: 64-bit addresses and a release build, files of less than 4 GiB, an allocator that gives the size requested, no
two of the data compressed with the same hash, a zstd that undoes what it did, writes to the cache that are not cut short, and a
cache that holds for the data compressed only what decompresses to them. -/
structure BenchSetting {S : Type} (c : BenchCodec S) (f : DebugIo.Format) (os : Os) (pl : Platform) (raw : Raw) (hash : Buf → BitVec 128)
    (env : Answers) (opts : AlgorithmOptions) (entries : List Path) (w : World (Progress × Option Result)) : Prop where
  wide : Wide pl
  release : pl.overflowChecks = false
  small : ∀ p ∈ entries, ∀ b, w.files p = some b → b.length < 2 ^ 32 ∧ b.length ≤ os.usizeMax
  heap : env.heap.Wf
  distinct : NoCollision hash (Seen c os w.files f entries)
  inverse : Inverse raw
  writes : WholeWrites env
  algorithm : opts.algorithm = .zstandard
  cache : Restorable raw hash (Seen c os w.files f entries) w.st.1.files

/-- What the command has done: the state `st` afterwards and the results `rs`.  `table` are the fixed scenarios; `plenty` says that nothing
runs out. -/
structure Benched {S : Type} (c : BenchCodec S) (f : DebugIo.Format) (table : List (String × S)) (os : Os) (raw : Raw)
    (hash : Buf → BitVec 128) (env : Answers) (rate : Nat → Nat → Nat) (opts : AlgorithmOptions) (iterations warmup : Nat)
    (entries : List Path) (w : World (Progress × Option Result)) (plenty : Prop) (st : Progress × Option Result) (rs : List Result) :
    Prop where
  /-- Each run of untransform has read the transform of a texture of the entries with the settings of the scenario, or with those
  recommended, and has restored the texture. -/
  runs : ∀ x ∈ st.1.restored, x ∈ w.st.1.restored ∨ ∃ p ∈ entries, ∃ b, Found os w.files f p b ∧ ∃ s,
    (x.scenario = "API Recommended" ∨ (x.scenario, s) ∈ table) ∧
    (∀ out, out.length = reckoned b → c.transform (textureOf b) out (reckoned b) s = some x.source) ∧ x.result = textureOf b
  /-- The results are those of the entries with a texture, in order; none is missing if nothing runs out. -/
  results : Tally (fun p r => ∃ b, Found os w.files f p b ∧
      IsReport rate (reckoned b) ("API Recommended" :: table.map Prod.fst ++ ["Untransformed"]) r)
    (fun p => plenty ∧ ∃ b, Found os w.files f p b) entries rs
  /-- Every scenario of every texture has run as often as requested. -/
  count : plenty → st.1.restored.length = w.st.1.restored.length + rs.length * ((table.length + 1) * (iterations + warmup))
  /-- If saving works, the cache then holds the compressed textures and the compressed transforms. -/
  cached : plenty → (∀ k, env.save k = .done) → ∀ p ∈ entries, ∀ b, Found os w.files f p b →
    (st.1.files (fileName ⟨hash (textureOf b), opts.getLevel, .zstandard⟩)).isSome ∧
    ∀ e ∈ table, ∀ out x, out.length = reckoned b → c.transform (textureOf b) out (reckoned b) e.2 = some x →
      (st.1.files (fileName ⟨hash x, opts.getLevel, .zstandard⟩)).isSome
  /-- The cache still holds only what decompresses to the data. -/
  faithful : Restorable raw hash (Seen c os w.files f entries) st.1.files

theorem Tally.mono {R : Type} {r r' : Path → R → Prop} {m m' : Path → Prop} {ps : List Path} {rs : List R} (h : Tally r m ps rs)
    (hr : ∀ p x, r p x → r' p x) (hm : ∀ p ∈ ps, m' p → m p) : Tally r' m' ps rs := by
  induction h with
  | nil => exact .nil
  | skip h _ ih => exact .skip (fun h' => h (hm _ (by simp) h')) (ih fun p hp => hm p (by simp [hp]))
  | one h _ ih => exact .one (hr _ _ h) (ih fun p hp => hm p (by simp [hp]))

theorem benched_of {S : Type} {c : BenchCodec S} {f : DebugIo.Format} {table : List (String × S)} {os : Os} {pl : Platform} {raw : Raw}
    {hash : Buf → BitVec 128} {env : Answers} {rate : Nat → Nat → Nat} {opts : AlgorithmOptions} {entries : List Path}
    {w : World (Progress × Option Result)} {lib : Lib} {iterations warmup : Nat} {plenty : Prop} {T : Buf → S → Buf}
    (h : BenchSetting c f os pl raw hash env opts entries w) (hit : iterations ≠ 0) (htab : c.scenarios = table)
    (hwk : ∀ p ∈ entries, ∀ b, Found os w.files f p b → Works c (Seen c os w.files f entries) (textureOf b) (T (textureOf b)))
    (hs : plenty → Unhindered env raw ∧ ∀ p ∈ entries, ∀ b, Found os w.files f p b →
      SearchSucceeds c lib hash opts.getEstimateLevel opts.getEstimateAlgorithm (textureOf b)) :
    ∃ st rs, run os (benchmark os pl f c lib raw hash env rate opts iterations warmup entries) w = ({ w with st := st }, some (.ok rs)) ∧
      Benched c f table os raw hash env rate opts iterations warmup entries w plenty st rs := by
  obtain ⟨st, rs, h1, hk, hx, ht, hu⟩ := benchmark_spec (rate := rate) h.wide h.release h.heap h.distinct h.inverse h.writes lib opts
    h.algorithm iterations warmup hit entries w h.small h.cache hwk
  subst htab
  refine ⟨st, rs, h1, ?_, ht.mono (fun _ _ h => h) ?_, ?_, ?_, hk.faithful h.cache⟩
  · intro x hxm
    refine (hx x hxm).imp_right ?_
    rintro ⟨p, hp, b, hb, s, h2, h3, h4⟩
    refine ⟨p, hp, b, hb, s, h2, fun out ho => ?_, h4⟩
    rw [← hb.length] at ho ⊢
    rw [(hwk p hp b hb).transform out s ho, h3]
  · rintro p hp ⟨hpl, b, hb⟩
    obtain ⟨h2, h3⟩ := hs hpl
    exact ⟨h2, b, hb, h3 p hp b hb⟩
  · intro hpl
    obtain ⟨h2, h3⟩ := hs hpl
    exact (hu h2 h3).1
  · intro hpl hsv p hp b hb
    obtain ⟨h2, h3⟩ := hs hpl
    obtain ⟨h4, h5⟩ := (hu h2 h3).2 hsv p hp b hb
    refine ⟨h5, fun e he out x ho hxx => ?_⟩
    rw [← hb.length] at ho hxx
    rw [(hwk p hp b hb).transform out e.2 ho] at hxx
    cases hxx
    exact h4 e he

/-- **C73** (BC1): the benchmark does not panic and changes no file of the input; each of its runs of untransform restores the
texture, whatever settings are recommended, and the results are those of the textures in order. -/
theorem C73_bc1 (menv : Env) (useAll : Bool) (norm : Option Norm.Bc1.Heap) (os : Os) (pl : Platform) (lib : Lib) (hl : Ample lib)
    (raw : Raw) (hash : Buf → BitVec 128) (env : Answers) (rate : Nat → Nat → Nat) (opts : AlgorithmOptions) (iterations warmup : Nat)
    (entries : List Path) (w : World (Progress × Option Result))
    (h : BenchSetting (DebugBench.bc1 menv pl.m useAll norm) .bc1 os pl raw hash env opts entries w) (hit : iterations ≠ 0) :
    ∃ st rs, run os (benchmark os pl .bc1 (DebugBench.bc1 menv pl.m useAll norm) lib raw hash env rate opts iterations warmup entries) w =
        ({ w with st := st }, some (.ok rs)) ∧
      Benched (DebugBench.bc1 menv pl.m useAll norm) .bc1
        [("NoSplit/None", ⟨.none, false⟩), ("NoSplit/YCoCg1", ⟨.v1, false⟩), ("Split/None", ⟨.none, true⟩), ("Split/YCoCg1", ⟨.v1, true⟩)]
        os raw hash env rate opts iterations warmup entries w
        (Unhindered env raw ∧ Estimates lib opts.getEstimateAlgorithm opts.getEstimateLevel ∧ (norm = none → ∀ n, menv.canAlloc n = true) ∧
          ∀ x, norm = some x → ∀ k n, x.canAlloc k n = true) st rs := by
  refine benched_of (T := fun d s => Bc1.encode pl.m.endian s d) h hit rfl (fun p hp b hb => works1 menv pl.m useAll norm hp hb) ?_
  rintro ⟨hu, he, hm, hn⟩
  refine ⟨hu, fun p hp b hb => ?_⟩
  cases norm with
  | none => exact search1 menv (hm rfl) pl.m useAll hl hash he hb.blocks
  | some x => exact search1n menv x (hn x rfl) pl.m useAll hl hash he hb.blocks

/-- **C73** (BC2): the same. -/
theorem C73_bc2 (menv : Env) (useAll : Bool) (os : Os) (pl : Platform) (lib : Lib) (hl : Ample lib)
    (raw : Raw) (hash : Buf → BitVec 128) (env : Answers) (rate : Nat → Nat → Nat) (opts : AlgorithmOptions) (iterations warmup : Nat)
    (entries : List Path) (w : World (Progress × Option Result))
    (h : BenchSetting (DebugBench.bc2 menv pl.m useAll) .bc2 os pl raw hash env opts entries w) (hit : iterations ≠ 0) :
    ∃ st rs, run os (benchmark os pl .bc2 (DebugBench.bc2 menv pl.m useAll) lib raw hash env rate opts iterations warmup entries) w =
        ({ w with st := st }, some (.ok rs)) ∧
      Benched (DebugBench.bc2 menv pl.m useAll) .bc2
        [("NoSplit/None", ⟨.none, false⟩), ("NoSplit/YCoCg1", ⟨.v1, false⟩), ("Split/None", ⟨.none, true⟩), ("Split/YCoCg1", ⟨.v1, true⟩)]
        os raw hash env rate opts iterations warmup entries w
        (Unhindered env raw ∧ Estimates lib opts.getEstimateAlgorithm opts.getEstimateLevel ∧ ∀ n, menv.canAlloc n = true) st rs := by
  refine benched_of (T := fun d s => Bc2.encode pl.m.endian s d) h hit rfl (fun p hp b hb => works2 menv pl.m useAll hp hb) ?_
  rintro ⟨hu, he, hm⟩
  exact ⟨hu, fun p hp b hb => search2 menv hm pl.m useAll hl hash he hb.blocks⟩

/-- **C73** (BC3): the same, with eight scenarios. -/
theorem C73_bc3 (menv : Env) (useAll : Bool) (os : Os) (pl : Platform) (lib : Lib) (hl : Ample lib)
    (raw : Raw) (hash : Buf → BitVec 128) (env : Answers) (rate : Nat → Nat → Nat) (opts : AlgorithmOptions) (iterations warmup : Nat)
    (entries : List Path) (w : World (Progress × Option Result))
    (h : BenchSetting (DebugBench.bc3 menv pl.m useAll) .bc3 os pl raw hash env opts entries w) (hit : iterations ≠ 0) :
    ∃ st rs, run os (benchmark os pl .bc3 (DebugBench.bc3 menv pl.m useAll) lib raw hash env rate opts iterations warmup entries) w =
        ({ w with st := st }, some (.ok rs)) ∧
      Benched (DebugBench.bc3 menv pl.m useAll) .bc3
        [("NoSplit/None", { splitAlpha := false, splitColour := false, decorr := .none }),
         ("NoSplit/YCoCg1", { splitAlpha := false, splitColour := false, decorr := .v1 }),
         ("Split/None", { splitAlpha := false, splitColour := true, decorr := .none }),
         ("Split/YCoCg1", { splitAlpha := false, splitColour := true, decorr := .v1 }),
         ("SplitAlpha/None", { splitAlpha := true, splitColour := false, decorr := .none }),
         ("SplitAlpha/YCoCg1", { splitAlpha := true, splitColour := false, decorr := .v1 }),
         ("SplitBoth/None", { splitAlpha := true, splitColour := true, decorr := .none }),
         ("SplitBoth/YCoCg1", { splitAlpha := true, splitColour := true, decorr := .v1 })]
        os raw hash env rate opts iterations warmup entries w
        (Unhindered env raw ∧ Estimates lib opts.getEstimateAlgorithm opts.getEstimateLevel ∧ ∀ n, menv.canAlloc n = true) st rs := by
  refine benched_of (T := fun d s => Bc3.encode pl.m.endian s d) h hit rfl (fun p hp b hb => works3 menv pl.m useAll hp hb) ?_
  rintro ⟨hu, he, hm⟩
  exact ⟨hu, fun p hp b hb => search3 menv hm pl.m useAll hl hash he hb.blocks⟩

/-- **C73** (algorithm): an algorithm that cannot compress is refused before any file is read. -/
theorem C73_refused {S : Type} (c : BenchCodec S) (f : DebugIo.Format) (os : Os) (pl : Platform) (lib : Lib)
    (raw : Raw) (hash : Buf → BitVec 128) (env : Answers) (rate : Nat → Nat → Nat) (opts : AlgorithmOptions) (iterations warmup : Nat)
    (entries : List Path) (w : World (Progress × Option Result)) (h : opts.algorithm = .losslessTransformUtils) :
    ∃ e, run os (benchmark os pl f c lib raw hash env rate opts iterations warmup entries) w = (w, some (.error e)) := by
  unfold benchmark validate
  rw [h]
  exact ⟨_, rfl⟩

/-! ## What goes wrong -/

theorem zero_processFile {S : Type} {c : BenchCodec S} {f : DebugIo.Format} {os : Os} {pl : Platform} {raw : Raw}
    {hash : Buf → BitVec 128} {env : Answers} {rate : Nat → Nat → Nat} {lib : Lib} {D : Buf → Prop} {T : S → Buf}
    (hwide : Wide pl) (hov : pl.overflowChecks = false) (hh : env.heap.Wf) (hi : NoCollision hash D) (hinv : Inverse raw)
    (hwr : WholeWrites env) (cfg : DebugBench.Config) (ha : cfg.algorithm = .zstandard) (hit : cfg.iterations = 0)
    (hdry : cfg.dryRun = false) (p : Path) (w : World (Progress × Option Result)) (b : Buf)
    (hl : ∀ b, w.files p = some b → b.length < 2 ^ 32 ∧ b.length ≤ os.usizeMax) (hf : Restorable raw hash D w.st.1.files)
    (hb : Found os w.files f p b) (hwk : Works c D (textureOf b) T) (hu : Unhindered env raw)
    (hss : SearchSucceeds c lib hash cfg.estimateLevel cfg.estimateAlgorithm (textureOf b)) :
    (run os (DebugBench.processFile os pl f c lib raw hash env rate cfg p) w).2 = none := by
  have hps : ∀ (name : String) (s : S) (st : Progress), Restorable raw hash D st.files →
      processScenario c raw hash env rate cfg (textureOf b) name s st = none := by
    intro name s st hf
    unfold processScenario
    obtain ⟨b0, h0⟩ := Option.isSome_iff_exists.1 (hu.memory st.asked (textureOf b).length)
    rw [h0]
    dsimp only
    rw [hwk.transform b0 s (hh _ _ _ h0)]
    dsimp only
    obtain ⟨st1, r1, h1, h1r, h1k, h1d, h1u, h1s⟩ := compressCached_spec hi hinv hwr (T s) (hwk.shown s) cfg.level st.next hf
    obtain ⟨packed, rfl⟩ := h1u hu
    rw [ha, h1]
    dsimp only
    rw [if_neg (by rw [hdry]; decide)]
    obtain ⟨b1, h2⟩ := Option.isSome_iff_exists.1 (hu.memory st1.asked (textureOf b).length)
    obtain ⟨b2, h3⟩ := Option.isSome_iff_exists.1 (hu.memory (st1.asked + 1) (textureOf b).length)
    rw [h2]
    dsimp only
    rw [h3]
    dsimp only
    obtain ⟨p, f, h4, _⟩ := warmupLoop_eq hwk name (h1d packed rfl) cfg.warmup b1 b2 st1.next.next (hh _ _ _ h2) (hh _ _ _ h3)
    rw [h4, hit]
    rfl
  have hpt : ∀ st : Progress, Restorable raw hash D st.files → processTexture c lib raw hash env rate cfg (textureOf b) st = none := by
    intro st hf
    unfold processTexture
    obtain ⟨buf, hbuf⟩ := Option.isSome_iff_exists.1 (hu.memory st.asked (textureOf b).length)
    obtain ⟨sizes', s, h⟩ := hss buf st.sizes (hh _ _ _ hbuf)
    rw [hbuf, h]
    dsimp only
    unfold scenarioLoop
    rw [hps "API Recommended" s { st.next with sizes := sizes' } hf]
  unfold DebugBench.processFile
  rw [run_op]
  simp only [exec, Option.map_some]
  rw [run_bind']
  obtain ⟨g, hrun⟩ := (C66_extract (σ := Progress × Option Result) os pl hwide hov f p (fun data _ =>
    .op (.call fun st => (processTexture c lib raw hash env rate cfg data st.1).map (fillResult st.2)) .ret)
    { w with st := (w.st.1, if cfg.dryRun = true then none else some ⟨0, []⟩) } hl).1 b hb
  rw [hrun, run_bind', run_op]
  simp only [exec, hpt _ hf, Option.map_none]

theorem zero_iterations {S : Type} {c : BenchCodec S} {f : DebugIo.Format} {os : Os} {pl : Platform} {raw : Raw}
    {hash : Buf → BitVec 128} {env : Answers} {rate : Nat → Nat → Nat} {opts : AlgorithmOptions} {entries : List Path}
    {w : World (Progress × Option Result)} {lib : Lib} {warmup : Nat} {T : Buf → S → Buf}
    (h : BenchSetting c f os pl raw hash env opts entries w)
    (hwk : ∀ p ∈ entries, ∀ b, Found os w.files f p b → Works c (Seen c os w.files f entries) (textureOf b) (T (textureOf b)))
    (hu : Unhindered env raw) (hs : ∀ p ∈ entries, ∀ b, Found os w.files f p b →
      SearchSucceeds c lib hash opts.getEstimateLevel opts.getEstimateAlgorithm (textureOf b))
    (hp : ∃ p ∈ entries, ∃ b, Found os w.files f p b) :
    (run os (benchmark os pl f c lib raw hash env rate opts 0 warmup entries) w).2 = none := by
  have loop : ∀ (cfg : DebugBench.Config), cfg.algorithm = .zstandard → cfg.iterations = 0 → cfg.dryRun = false →
      cfg.estimateLevel = opts.getEstimateLevel → cfg.estimateAlgorithm = opts.getEstimateAlgorithm →
      ∀ (ps : List Path) (acc : List Result) (w' : World (Progress × Option Result)), w'.files = w.files → (∀ p ∈ ps, p ∈ entries) →
      Restorable raw hash (Seen c os w.files f entries) w'.st.1.files → (∃ p ∈ ps, ∃ b, Found os w.files f p b) →
      (run os (benchLoop os pl f c lib raw hash env rate cfg ps acc) w').2 = none := by
    intro cfg ha hit hdry hel hea ps
    induction ps with
    | nil => rintro _ _ _ _ _ ⟨p, hp, _⟩; simp at hp
    | cons p ps ih =>
      intro acc w' hw' hsub hf hex
      unfold benchLoop
      rw [run_bind']
      by_cases hb : ∃ b, Found os w'.files f p b
      · obtain ⟨b, hb⟩ := hb
        have hb' := hb
        rw [hw'] at hb'
        have hz := zero_processFile (c := c) (f := f) (os := os) (lib := lib) (rate := rate) h.wide h.release h.heap h.distinct h.inverse h.writes
          cfg ha hit hdry p w' b (by rw [hw']; exact h.small p (hsub p (by simp))) hf hb (hwk p (hsub p (by simp)) b hb') hu
          (by rw [hel, hea]; exact hs p (hsub p (by simp)) b hb')
        rcases hr : run os (DebugBench.processFile os pl f c lib raw hash env rate cfg p) w' with ⟨w2, _ | r⟩
        · rfl
        · rw [hr] at hz; exact nomatch hz
      · have hex' : ∃ p ∈ ps, ∃ b, Found os w.files f p b := by
          obtain ⟨q, hq, b, hqb⟩ := hex
          rcases List.mem_cons.1 hq with rfl | hq
          · exact absurd ⟨b, by rw [hw']; exact hqb⟩ hb
          · exact ⟨q, hq, b, hqb⟩
        have hrun : ∃ e st', run os (DebugBench.processFile os pl f c lib raw hash env rate cfg p) w' =
            ({ w' with st := st' }, some (.error e)) ∧ st'.1 = w'.st.1 := by
          unfold DebugBench.processFile
          rw [run_op]
          simp only [exec, Option.map_some]
          rw [run_bind']
          obtain ⟨e, he⟩ := (C66_extract (σ := Progress × Option Result) os pl h.wide h.release f p (fun data _ =>
            .op (.call fun st => (processTexture c lib raw hash env rate cfg data st.1).map (fillResult st.2)) .ret)
            { w' with st := (w'.st.1, if cfg.dryRun = true then none else some ⟨0, []⟩) }
            (by rw [hw']; exact h.small p (hsub p (by simp)))).2 hb
          rw [he]
          exact ⟨e, _, rfl, rfl⟩
        obtain ⟨e, st', hrun, hst⟩ := hrun
        rw [hrun]
        exact ih acc _ hw' (fun q hq => hsub q (by simp [hq])) (by dsimp only; rw [hst]; exact hf) hex'
  unfold benchmark validate
  rw [h.algorithm]
  simp only [Algorithm.supportsCompress, if_true]
  rw [run_bind']
  obtain ⟨st1, rs1, h1, h1k, _⟩ := benchLoop_spec (c := c) (rate := rate) h.wide h.release h.heap h.distinct h.inverse h.writes lib
    (⟨0, 0, opts.getLevel, opts.getEstimateLevel, .zstandard, opts.getEstimateAlgorithm, true⟩) rfl (.inr rfl)
    entries [] w h.small h.cache hwk
  rw [h1]
  dsimp only
  rw [run_bind']
  have := loop (⟨0, warmup, opts.getLevel, opts.getEstimateLevel, .zstandard, opts.getEstimateAlgorithm, false⟩) rfl rfl rfl rfl rfl
    entries [] { w with st := st1 } rfl (fun _ h => h) (h1k.faithful h.cache) hp
  rcases hr : run os (benchLoop os pl f c lib raw hash env rate
    (⟨0, warmup, opts.getLevel, opts.getEstimateLevel, .zstandard, opts.getEstimateAlgorithm, false⟩) entries []) { w with st := st1 }
    with ⟨w2, _ | r⟩
  · rfl
  · rw [hr] at this; exact nomatch this

/-- **C73** (no iterations): with `--iterations 0` the command panics if an entry holds a texture and nothing runs out: it divides a
duration by zero. -/
theorem C73_zero_iterations (menv : Env) (hm : ∀ n, menv.canAlloc n = true) (norm : Norm.Bc1.Heap)
    (hn : ∀ k n, norm.canAlloc k n = true) (useAll : Bool) (os : Os) (pl : Platform) (lib : Lib)
    (hl : Ample lib) (raw : Raw) (hash : Buf → BitVec 128) (env : Answers) (hu : Unhindered env raw) (rate : Nat → Nat → Nat)
    (opts : AlgorithmOptions) (he : Estimates lib opts.getEstimateAlgorithm opts.getEstimateLevel) (warmup : Nat)
    (entries : List Path) (w : World (Progress × Option Result)) :
    (BenchSetting (DebugBench.bc1 menv pl.m useAll none) .bc1 os pl raw hash env opts entries w →
      (∃ p ∈ entries, ∃ b, Found os w.files .bc1 p b) →
      (run os (benchmark os pl .bc1 (DebugBench.bc1 menv pl.m useAll none) lib raw hash env rate opts 0 warmup entries) w).2 = none) ∧
    (BenchSetting (DebugBench.bc1 menv pl.m useAll (some norm)) .bc1 os pl raw hash env opts entries w →
      (∃ p ∈ entries, ∃ b, Found os w.files .bc1 p b) →
      (run os (benchmark os pl .bc1 (DebugBench.bc1 menv pl.m useAll (some norm)) lib raw hash env rate opts 0 warmup entries) w).2 = none) ∧
    (BenchSetting (DebugBench.bc2 menv pl.m useAll) .bc2 os pl raw hash env opts entries w →
      (∃ p ∈ entries, ∃ b, Found os w.files .bc2 p b) →
      (run os (benchmark os pl .bc2 (DebugBench.bc2 menv pl.m useAll) lib raw hash env rate opts 0 warmup entries) w).2 = none) ∧
    (BenchSetting (DebugBench.bc3 menv pl.m useAll) .bc3 os pl raw hash env opts entries w →
      (∃ p ∈ entries, ∃ b, Found os w.files .bc3 p b) →
      (run os (benchmark os pl .bc3 (DebugBench.bc3 menv pl.m useAll) lib raw hash env rate opts 0 warmup entries) w).2 = none) := by
  refine ⟨fun h hp => ?_, fun h hp => ?_, fun h hp => ?_, fun h hp => ?_⟩
  · exact zero_iterations (T := fun d s => Bc1.encode pl.m.endian s d) h (fun p hp b hb => works1 menv pl.m useAll none hp hb) hu
      (fun p _ b hb => search1 menv hm pl.m useAll hl hash he hb.blocks) hp
  · exact zero_iterations (T := fun d s => Bc1.encode pl.m.endian s d) h (fun p hp b hb => works1 menv pl.m useAll (some norm) hp hb) hu
      (fun p _ b hb => search1n menv norm hn pl.m useAll hl hash he hb.blocks) hp
  · exact zero_iterations (T := fun d s => Bc2.encode pl.m.endian s d) h (fun p hp b hb => works2 menv pl.m useAll hp hb) hu
      (fun p _ b hb => search2 menv hm pl.m useAll hl hash he hb.blocks) hp
  · exact zero_iterations (T := fun d s => Bc3.encode pl.m.endian s d) h (fun p hp b hb => works3 menv pl.m useAll hp hb) hu
      (fun p _ b hb => search3 menv hm pl.m useAll hl hash he hb.blocks) hp

/-- **C73** (damaged cache): if the cache holds for a texture a file that does not decompress, the scenario without transform is an error
if there is a warmup, and otherwise a panic; in both cases the file stays in the cache.  A write that fails half-way leaves such a
file. -/
theorem C73_damaged_cache (raw : Raw) (hash : Buf → BitVec 128) (env : Answers) (rate : Nat → Nat → Nat) (cfg : DebugBench.Config)
    (ha : cfg.algorithm = .zstandard) (hdry : cfg.dryRun = false) (hh : env.heap.Wf) (hu : Unhindered env raw) (data : Buf) (name : String) :
    (∀ (st : Progress) (b : Buf), st.files (fileName ⟨hash data, cfg.level, .zstandard⟩) = some b →
      raw.decompress b data.length = none →
      (cfg.warmup = 0 → cfg.iterations ≠ 0 → processUntransformed raw hash env rate cfg data name st = none) ∧
      (cfg.warmup ≠ 0 → ∃ st' e, processUntransformed raw hash env rate cfg data name st = some (st', .error e) ∧ st'.files = st.files)) ∧
    (∀ (st : Progress) (out : Buf) (n : Nat), st.files (fileName ⟨hash data, cfg.level, .zstandard⟩) = none →
      raw.compress cfg.level data = some out → env.save st.asked = .cut n →
      ∃ st', compressCached raw hash env data cfg.level .zstandard st = some (st', .ok out) ∧
        st'.files (fileName ⟨hash data, cfg.level, .zstandard⟩) = some (out.take n)) := by
  refine ⟨fun st b hb hd => ?_, fun st out n hn hc hs => ?_⟩
  · have hcc : compressCached raw hash env data cfg.level cfg.algorithm st = some (st.next, .ok b) := by
      unfold compressCached
      rw [ha]
      dsimp only
      rw [hb]
      dsimp only
      rw [if_pos (hu.read _)]
    obtain ⟨b1, h1⟩ := Option.isSome_iff_exists.1 (hu.memory st.next.asked data.length)
    have hlen := hh _ _ _ h1
    have hdd : decompressData raw b b1 cfg.algorithm = some (.error (.debug "ZStandard decompression failed")) := by
      unfold decompressData
      rw [ha]
      dsimp only
      rw [hlen, hd]
    constructor
    · intro hw hit
      obtain ⟨k, hk⟩ := Nat.exists_eq_succ_of_ne_zero hit
      unfold processUntransformed
      rw [hcc]
      dsimp only
      rw [if_neg (by rw [hdry]; decide), h1, hw]
      simp only [warmupPlain]
      rw [hk]
      unfold decompressLoop
      rw [hdd]
    · intro hw
      obtain ⟨k, hk⟩ := Nat.exists_eq_succ_of_ne_zero hw
      unfold processUntransformed
      rw [hcc]
      dsimp only
      rw [if_neg (by rw [hdry]; decide), h1, hk]
      unfold warmupPlain
      dsimp only
      rw [hdd]
      exact ⟨_, _, rfl, rfl⟩
  · unfold compressCached
    dsimp only
    rw [hn]
    unfold compressWith
    dsimp only
    rw [hc]
    dsimp only
    rw [hs]
    exact ⟨_, rfl, setFile_same _ _ _⟩

/-! ## The benchmark of the search -/

theorem determineLoop_total {S : Type} (once : Option Buf → Option (Except CliError S)) (heap : Heap) (len : Nat)
    (ht : ∀ k, ∃ r, once (heap k len) = some r) : ∀ n k, ∃ r, determineLoop once heap len n k = some r ∧
      (∀ j, r = .ok j → j = k + n) ∧ ((∃ j, r = .ok j) ↔ ∀ i, k ≤ i → i < k + n → ∃ s, once (heap i len) = some (.ok s))
  | 0, k => ⟨_, rfl, fun j h => by cases h; rfl, fun _ i h1 h2 => by omega, fun _ => ⟨_, rfl⟩⟩
  | n + 1, k => by
    unfold determineLoop
    obtain ⟨r, hr⟩ := ht k
    rw [hr]
    rcases r with e | s
    · refine ⟨_, rfl, fun j h => (nomatch h), fun ⟨j, h⟩ => (nomatch h), fun h => ?_⟩
      obtain ⟨s, hs⟩ := h k (Nat.le_refl _) (by omega)
      rw [hr] at hs
      exact nomatch hs
    · dsimp only
      obtain ⟨r, h1, h2, h3⟩ := determineLoop_total once heap len ht n (k + 1)
      refine ⟨r, h1, fun j hj => by have := h2 j hj; omega, h3.trans ⟨fun h i hi1 hi2 => ?_, fun h i hi1 hi2 => h i (by omega) (by omega)⟩⟩
      by_cases hik : i = k
      · subst hik; exact ⟨s, hr⟩
      · exact h i (by omega) (by omega)

/-- **C73** (search): with at least one iteration the benchmark of the search does not panic; it succeeds exactly if every search of the
warmup and of the measurement does, and then reports no time for decompression.  With no iterations it panics unless a search of the
warmup fails. -/
theorem C73_determine {S : Type} (once : Option Buf → Option (Except CliError S)) (heap : Heap) (rate : Nat → Nat → Nat)
    (elapsed warmup len : Nat) (ht : ∀ k, ∃ r, once (heap k len) = some r) :
    (∀ iterations, iterations ≠ 0 → ∃ r, determineScenario once heap rate elapsed iterations warmup len = some r ∧
      ((∃ x, r = .ok x) ↔ ∀ i, i < warmup + iterations → ∃ s, once (heap i len) = some (.ok s)) ∧
      ∀ x, r = .ok x → x = Scenario.new rate "determine_best_transform_details" len 0 (elapsed / iterations)) ∧
    (determineScenario once heap rate elapsed 0 warmup len = none ↔ ∀ i, i < warmup → ∃ s, once (heap i len) = some (.ok s)) := by
  obtain ⟨r1, h1, h1j, h1i⟩ := determineLoop_total once heap len ht warmup 0
  constructor
  · intro iterations hit
    unfold determineScenario
    rw [h1]
    rcases r1 with e | j
    · refine ⟨_, rfl, ⟨fun ⟨x, h⟩ => (nomatch h), fun h => ?_⟩, fun x h => (nomatch h)⟩
      obtain ⟨j, hj⟩ := h1i.2 fun i _ hi => h i (by omega)
      exact nomatch hj
    · obtain rfl := h1j j rfl
      dsimp only
      obtain ⟨r2, h2, h2j, h2i⟩ := determineLoop_total once heap len ht iterations (0 + warmup)
      rw [h2]
      have hall := h1i.1 ⟨_, rfl⟩
      rcases r2 with e | j
      · refine ⟨_, rfl, ⟨fun ⟨x, h⟩ => (nomatch h), fun h => ?_⟩, fun x h => (nomatch h)⟩
        obtain ⟨j, hj⟩ := h2i.2 fun i _ hi => h i (by omega)
        exact nomatch hj
      · dsimp only
        rw [average, if_neg hit]
        refine ⟨_, rfl, ⟨fun _ i hi => ?_, fun _ => ⟨_, rfl⟩⟩, fun x h => by cases h; rfl⟩
        by_cases hlt : i < warmup
        · exact hall i (by omega) (by omega)
        · exact h2i.1 ⟨_, rfl⟩ i (by omega) (by omega)
  · unfold determineScenario
    rw [h1]
    rcases r1 with e | j
    · refine ⟨fun h => (nomatch h), fun h => ?_⟩
      obtain ⟨j, hj⟩ := h1i.2 fun i _ hi => h i (by omega)
      exact nomatch hj
    · exact ⟨fun _ i hi => h1i.1 ⟨_, rfl⟩ i (by omega) (by omega), fun _ => rfl⟩

theorem determineBestPlain_total {S : Type}
    {auto : Estimator Unit CliError → Buf → Buf → Nat → Unit → Option (Buf × Unit × Except (DetermineBestError CliError) S)} {data : Buf}
    (h : ∀ est out, out.length = data.length → ∃ o st r, auto est data out data.length () = some (o, st, r)) (lib : Lib) (level : BitVec 32)
    (a : Algorithm) (buf : Option Buf) (hb : ∀ b, buf = some b → b.length = data.length) :
    ∃ r, determineBestPlain auto lib level a data buf = some r := by
  unfold determineBestPlain
  rcases createSizeEstimator (σ := Unit) lib a level with e | inner
  · exact ⟨_, rfl⟩
  rcases buf with _ | buf
  · exact ⟨_, rfl⟩
  obtain ⟨o, st, r, h1⟩ := h inner buf (hb buf rfl)
  dsimp only
  rw [h1]
  exact ⟨_, rfl⟩

/-- **C73** (search, formats): the searches of the formats meet the hypothesis of `C73_determine`. -/
theorem C73_determine_formats (env : Env) (norm : Norm.Bc1.Heap) (m : Machine) (useAll : Bool) (heap : Heap) (hh : heap.Wf) (lib : Lib) (level : BitVec 32)
    (a : Algorithm) (data : Buf) (k : Nat) :
    (data.length % 8 = 0 → ∃ r, determineBestPlain (fun est => Bc1.transformAuto env m est useAll) lib level a data
      (heap k data.length) = some r) ∧
    (data.length % 8 = 0 → ∃ r, determineBestPlain (autoNormalized norm m useAll) lib level a data
      (heap k data.length) = some r) ∧
    (data.length % 16 = 0 → ∃ r, determineBestPlain (fun est => Bc2.transformAuto env m est useAll) lib level a data
      (heap k data.length) = some r) ∧
    (data.length % 16 = 0 → ∃ r, determineBestPlain (fun est => Bc3.transformAuto env m est useAll) lib level a data
      (heap k data.length) = some r) := by
  refine ⟨fun hB => ?_, fun hB => ?_, fun hB => ?_, fun hB => ?_⟩
  · refine determineBestPlain_total (fun est out ho => ?_) lib level a _ (fun b hb => hh _ _ _ hb)
    obtain ⟨o, s, r, h, _⟩ := C17_bc1_auto_reports_used env m est useAll data out () hB (by omega)
    exact ⟨o, s, r, h⟩
  · refine determineBestPlain_total (fun est out ho => ?_) lib level a _ (fun b hb => hh _ _ _ hb)
    obtain ⟨o, s, r, h, _⟩ := C50_auto_normalize norm m est useAll data out () hB (by omega)
    refine ⟨o, s, r.map fun d => ⟨d.decorr, d.split⟩, ?_⟩
    unfold autoNormalized
    rw [h]
    rfl
  · refine determineBestPlain_total (fun est out ho => ?_) lib level a _ (fun b hb => hh _ _ _ hb)
    obtain ⟨o, s, r, h, _⟩ := C18_bc2_auto_reports_used env m est useAll data out () hB (by omega)
    exact ⟨o, s, r, h⟩
  · refine determineBestPlain_total (fun est out ho => ?_) lib level a _ (fun b hb => hh _ _ _ hb)
    obtain ⟨o, s, r, h, _⟩ := C19_bc3_auto_reports_used env m est useAll data out () hB (by omega)
    exact ⟨o, s, r, h⟩

/-! ## A case that meets the hypotheses -/

/-- A compressor that puts one byte before the data. -/
def exampleRaw : Raw where
  compress _ x := some (0xFD :: x)
  decompress x n := match x with
    | [] => none
    | _ :: x => if x.length = n then some x else none

/-- Nothing fails. -/
def exampleAnswers : Answers := ⟨fun _ n => some (List.replicate n 0), fun _ => true, fun _ => .done, fun k => 10 * k⟩

/-- `/d/a.dds` is the texture `smallFile`, `/d/b.txt` a text; the caches are empty. -/
def exampleWorld : World (Progress × Option Result) :=
  { mixedWorld with st := (⟨[], fun _ => none, 0, []⟩, none) }

def exampleSeen : List Buf := textureOf smallFile :: allColour.map fun s =>
  (Bc1.transformWithSettings exampleMachine (textureOf smallFile) (List.replicate 8 0) 8 s).getD []

theorem exampleFound : Found openOs exampleWorld.files .bc1 ["d", "a.dds"] smallFile :=
  ⟨rfl, rfl, rfl, rfl, .inr (by decide +kernel), ⟨by decide +kernel, by decide +kernel, by decide +kernel⟩⟩

theorem example_files {p : Path} {b : Buf} (h : exampleWorld.files p = some b) : b = smallFile ∨ b = ascii "text" := by
  simp only [exampleWorld, mixedWorld] at h
  split at h
  · exact .inl (Option.some.inj h).symm
  · split at h
    · exact .inr (Option.some.inj h).symm
    · exact nomatch h

theorem exampleSeen_complete (x : Buf) (h : Seen (DebugBench.bc1 ⟨fun _ => true, 2 ^ 64 - 1⟩ somePlatform.m false none) openOs
    exampleWorld.files .bc1 [["d", "a.dds"], ["d", "b.txt"]] x) : x ∈ exampleSeen := by
  obtain ⟨p, _, b, hb, h⟩ := h
  obtain rfl : b = smallFile := by
    rcases example_files hb.file with h | rfl
    · exact h
    · exact absurd hb.texture.dds (by decide +kernel)
  have hlen : (textureOf smallFile).length = 8 := by decide +kernel
  rcases h with rfl | ⟨out, s, ho, h⟩
  · exact List.mem_cons_self ..
  · refine List.mem_cons_of_mem _ (List.mem_map.2 ⟨s, C66_all_combinations.1 s, ?_⟩)
    have hw := works1 ⟨fun _ => true, 2 ^ 64 - 1⟩ somePlatform.m false none (entries := [p]) (by simp) hb
    rw [hw.transform out s ho] at h
    have h2 := hw.transform (List.replicate 8 0) s (by rw [hlen]; rfl)
    rw [hlen] at h2
    have h3 : Bc1.transformWithSettings exampleMachine (textureOf smallFile) (List.replicate 8 0) 8 s = some x := h2.trans h
    rw [h3]
    rfl

/-- The hypotheses of `C73_bc1` and of `C73_zero_iterations` can be met. -/
theorem exampleSetting : BenchSetting (DebugBench.bc1 ⟨fun _ => true, 2 ^ 64 - 1⟩ somePlatform.m false none) .bc1 openOs somePlatform exampleRaw exampleHash
      exampleAnswers {} [["d", "a.dds"], ["d", "b.txt"]] exampleWorld ∧
    Unhindered exampleAnswers exampleRaw ∧ Estimates exampleLib .zstandard 3 := by
  refine ⟨⟨?_, rfl, ?_, ?_, ?_, ?_, ?_, rfl, ?_⟩, ⟨fun _ _ => rfl, fun _ => rfl, fun _ _ => rfl⟩, ?_⟩
  · unfold Wide; decide
  · intro p _ b h
    rcases example_files h with rfl | rfl <;> decide +kernel
  · intro k n b h
    cases h
    simp
  · have : ∀ x ∈ exampleSeen, ∀ y ∈ exampleSeen, exampleHash x = exampleHash y → x = y := by decide +kernel
    exact fun x y hx hy => this x (exampleSeen_complete x hx) y (exampleSeen_complete y hy)
  · intro level x out h
    cases h
    simp [exampleRaw]
  · exact fun k n h => nomatch h
  · exact fun x _ level b h => nomatch h
  · intro x
    unfold trueSize
    dsimp only
    rw [if_pos (by decide)]
    split <;> simp [exampleLib, Except.toOption]

/-- The benchmark with two iterations and one for warmup: 8 bytes, 15 runs, and the names of the results. -/
example : (match run openOs (benchmark openOs somePlatform .bc1 (DebugBench.bc1 ⟨fun _ => true, 2 ^ 64 - 1⟩ somePlatform.m false none) exampleLib
      exampleRaw exampleHash exampleAnswers (fun n t => n * 1000 / t) {} 2 1 [["d", "a.dds"], ["d", "b.txt"]]) exampleWorld with
    | (w, some (.ok [r])) => some (w.st.1.restored.length, r.size, r.scenarios.map fun s => s.name)
    | _ => none) =
    some (15, 8, ["API Recommended", "NoSplit/None", "NoSplit/YCoCg1", "Split/None", "Split/YCoCg1", "Untransformed"]) := by
  decide +kernel

/-- With no iterations: the panic. -/
example : (run openOs (benchmark openOs somePlatform .bc1 (DebugBench.bc1 ⟨fun _ => true, 2 ^ 64 - 1⟩ somePlatform.m false none) exampleLib
      exampleRaw exampleHash exampleAnswers (fun n t => n * 1000 / t) {} 0 1 [["d", "a.dds"], ["d", "b.txt"]]) exampleWorld).2.isNone := by
  decide +kernel

/-- A file of the cache that is cut short does not decompress. -/
example : (exampleRaw.compress 16 [1, 2, 3]).map (fun out => exampleRaw.decompress (out.take 2) 3) = some none := by decide

end Dlt.Props
