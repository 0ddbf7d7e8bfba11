import Verif.Props.BenchCommands
/-!
# C74: the statistics of the benchmark commands, C75: names and levels of compression algorithms
-/

namespace Dlt.Props

open Dlt.Cache Dlt.DebugIo Dlt.DebugStats Dlt.DebugBench
open Dlt.FileIo

/-! ## The times of one scenario -/

/-- A line for the scenario `title` with these average times for a texture of `size` bytes: `td` of decompression, `tu` of untransform. -/
structure IsLine (rate : Nat → Nat → Nat) (r : Scenario) (title : String) (size td tu : Nat) : Prop where
  name : r.name = title
  decompress : r.decompressTime = td ∧ r.decompressRate = if td = 0 then 0 else rate size td
  untransform : r.untransformTime = tu ∧ r.untransformRate = if tu = 0 then 0 else rate size tu
  combined : r.combinedTime = td + tu ∧ r.combinedRate = if td + tu = 0 then 0 else rate size (td + tu)

/-- **C74**: the line of a scenario has the times of the last two measurements, of decompression and of untransform in this order, divided by
the number of iterations; the line without transform has that of the last measurement and zero. -/
theorem C74_times {S : Type} (c : BenchCodec S) (raw : Raw) (hash : Buf → BitVec 128) (env : Answers) (rate : Nat → Nat → Nat)
    (cfg : DebugBench.Config) (data : Buf) (name : String) (s : S) (st st' : Progress) (r : Scenario) :
    (processScenario c raw hash env rate cfg data name s st = some (st', .ok (some r)) →
      0 < cfg.iterations ∧ ∃ k, st'.asked = k + 2 ∧
        IsLine rate r name data.length (env.elapsed k / cfg.iterations) (env.elapsed (k + 1) / cfg.iterations)) ∧
    (processUntransformed raw hash env rate cfg data name st = some (st', .ok (some r)) →
      0 < cfg.iterations ∧ ∃ k, st'.asked = k + 1 ∧ IsLine rate r name data.length (env.elapsed k / cfg.iterations) 0) := by
  constructor
  · intro h
    unfold processScenario at h
    split at h
    · simp at h
    split at h
    · simp at h
    split at h
    · simp at h
    · simp at h
    split at h
    · simp at h
    split at h
    · simp at h
    split at h
    · simp at h
    split at h
    · simp at h
    · simp at h
    split at h
    · simp at h
    split at h
    · simp at h
    split at h
    · rename_i d u hd hu
      unfold average at hd hu
      split at hd
      · simp at hd
      · rename_i hi
        simp only [hi, if_false, Option.some.injEq] at hd hu
        simp only [Option.some.injEq, Prod.mk.injEq, Except.ok.injEq] at h
        obtain ⟨rfl, rfl⟩ := h
        subst hd hu
        exact ⟨by omega, _, rfl, rfl, ⟨rfl, rfl⟩, ⟨rfl, rfl⟩, ⟨rfl, rfl⟩⟩
    · simp at h
  · intro h
    unfold processUntransformed at h
    split at h
    · simp at h
    · simp at h
    split at h
    · simp at h
    split at h
    · simp at h
    split at h
    · simp at h
    · simp at h
    split at h
    · simp at h
    split at h
    · simp at h
    · rename_i d hd
      unfold average at hd
      split at hd
      · simp at hd
      · simp only [Option.some.injEq] at hd
        simp only [Option.some.injEq, Prod.mk.injEq, Except.ok.injEq] at h
        obtain ⟨rfl, rfl⟩ := h
        subst hd
        exact ⟨by omega, _, rfl, rfl, ⟨rfl, rfl⟩, ⟨rfl, rfl⟩, ⟨rfl, rfl⟩⟩

/-- The measured data is nothing here; the times are 7 and 9 seconds for two iterations. -/
example : (processScenario (S := Unit)
    { transform := fun _ out _ _ => some out, auto := fun _ _ _ _ _ => none, all := [()], untransform := fun _ out _ _ => some out,
      scenarios := [] }
    { compress := fun _ d => some d, decompress := fun d _ => some d } (fun _ => 0)
    { canRead := fun _ => true, save := fun _ => .unchanged, heap := fun _ n => some (List.replicate n 0), elapsed := fun k => if k = 4 then 7 else 9 }
    (fun _ t => 100 / t)
    { iterations := 2, warmup := 1, level := 3, estimateLevel := 3, algorithm := .zstandard, estimateAlgorithm := .zstandard, dryRun := false }
    [1, 2] "x" () ⟨[], fun _ => none, 0, []⟩).map (fun r => (r.1.asked, r.2.toOption)) =
    some (6, some (some ⟨"x", 3, 4, 7, 33, 25, 14⟩)) := by decide +kernel

/-! ## Statistics -/

/-- The sum of `t` over the results for the scenario `name`. -/
def sumOver (results : List Result) (name : String) (t : Scenario → Nat) : Nat :=
  (results.map fun r => ((r.scenarios.filter fun s => s.name = name).map t).sum).sum

/-- The bytes processed in the scenario `name`: the size of a result counts for each of its scenarios of this name. -/
def bytesOf (results : List Result) (name : String) : Nat :=
  (results.map fun r => r.size * (r.scenarios.filter fun s => s.name = name).length).sum

/-- `names` are the names of the scenarios, each once, in any order: a `HashMap` is iterated in an arbitrary order. -/
structure AreNames (results : List Result) (names : List String) : Prop where
  nodup : names.Nodup
  all : ∀ n, n ∈ names ↔ ∃ r ∈ results, ∃ s ∈ r.scenarios, s.name = n

theorem group_cons (r : Result) (rs : List Result) (n : String) :
    group (r :: rs) n = ((r.scenarios.filter fun s => s.name = n).map fun s => (s, r.size)) ++ group rs n := by
  unfold group allScenarios
  rw [List.flatMap_cons, List.filter_append, List.filter_map]
  rfl

theorem sum_group (results : List Result) (n : String) (t : Scenario → Nat) :
    ((group results n).map fun e => t e.1).sum = sumOver results n t := by
  induction results with
  | nil => rfl
  | cons r rs ih =>
    rw [group_cons, List.map_append, List.sum_append, ih, List.map_map]
    rfl

theorem size_group (results : List Result) (n : String) : ((group results n).map fun e => e.2).sum = bytesOf results n := by
  induction results with
  | nil => rfl
  | cons r rs ih =>
    rw [group_cons, List.map_append, List.sum_append, ih, List.map_map]
    unfold bytesOf
    rw [List.map_cons, List.sum_cons]
    congr 1
    generalize r.scenarios.filter (fun s => s.name = n) = l
    induction l with
    | nil => simp
    | cons a l ih => simp only [List.map_cons, List.sum_cons, ih, Function.comp_apply, List.length_cons, Nat.mul_succ]; omega

/-- **C74**: whatever the order of the map, the statistics have one line for each scenario, with the sums of the times and the throughput
that belongs to the sums, and the lines are sorted by the combined throughput, the best first. -/
theorem C74_overall (rate : Nat → Nat → Nat) (names : List String) (results : List Result) (h : AreNames results names) :
    ((overall rate names results).map Stats.name).Nodup ∧
    (∀ n, n ∈ (overall rate names results).map Stats.name ↔ ∃ r ∈ results, ∃ s ∈ r.scenarios, s.name = n) ∧
    (overall rate names results).Pairwise (fun a b => b.combinedRate ≤ a.combinedRate) ∧
    ∀ x ∈ overall rate names results,
      x.decompressTime = sumOver results x.name Scenario.decompressTime ∧
      x.untransformTime = sumOver results x.name Scenario.untransformTime ∧
      x.combinedTime = sumOver results x.name Scenario.combinedTime ∧
      x.decompressRate = (if x.decompressTime = 0 then 0 else rate (bytesOf results x.name) x.decompressTime) ∧
      x.untransformRate = (if x.untransformTime = 0 then 0 else rate (bytesOf results x.name) x.untransformTime) ∧
      x.combinedRate = (if x.combinedTime = 0 then 0 else rate (bytesOf results x.name) x.combinedTime) := by
  unfold overall
  have hp := List.mergeSort_perm (names.map fun n => groupStats rate n (group results n))
    fun a b => decide (b.combinedRate ≤ a.combinedRate)
  have hn := hp.map Stats.name
  rw [List.map_map, show (Stats.name ∘ fun n => groupStats rate n (group results n)) = id from rfl, List.map_id] at hn
  refine ⟨hn.nodup_iff.2 h.nodup, fun n => by rw [hn.mem_iff]; exact h.all n, ?_, ?_⟩
  · have := List.pairwise_mergeSort (le := fun a b : Stats => decide (b.combinedRate ≤ a.combinedRate))
      (fun a b c h1 h2 => by simp only [decide_eq_true_eq] at *; omega)
      (fun a b => by simp only [Bool.or_eq_true, decide_eq_true_eq]; omega)
      (names.map fun n => groupStats rate n (group results n))
    exact this.imp fun h => by simpa using h
  · intro x hx
    obtain ⟨n, _, rfl⟩ := List.mem_map.1 (hp.mem_iff.1 hx)
    unfold groupStats
    dsimp only
    rw [sum_group, sum_group, sum_group, size_group]
    exact ⟨rfl, rfl, rfl, rfl, rfl, rfl⟩

theorem filter_measured {rate : Nat → Nat → Nat} {len : Nat} {ns : List String} {ss : List Scenario} (h : AllMeasured rate len ns ss)
    (n : String) : (ss.filter fun s => s.name = n).length = (ns.filter fun m => m = n).length := by
  induction h with
  | nil => rfl
  | cons h _ ih =>
    rename_i m ms s ss _
    obtain ⟨d, u, this, _⟩ := h
    by_cases hm : m = n
    · rw [List.filter_cons_of_pos (by rw [this]; simpa using hm), List.filter_cons_of_pos (by simpa using hm), List.length_cons,
        List.length_cons, ih]
    · rw [List.filter_cons_of_neg (by rw [this]; simpa using hm), List.filter_cons_of_neg (by simpa using hm), ih]

theorem filter_nodup {ns : List String} (h : ns.Nodup) {n : String} (hn : n ∈ ns) : (ns.filter fun m => m = n).length = 1 := by
  induction ns with
  | nil => simp at hn
  | cons a as ih =>
    rw [List.nodup_cons] at h
    by_cases ha : a = n
    · subst ha
      rw [List.filter_cons_of_pos (by simp), List.length_cons]
      have : as.filter (fun m => decide (m = a)) = [] := by
        rw [List.filter_eq_nil_iff]
        intro m hm
        simp only [decide_eq_true_eq]
        rintro rfl
        exact h.1 hm
      rw [this]
      rfl
    · rw [List.filter_cons_of_neg (by simpa using ha)]
      exact ih h.2 (by simpa [Ne.symm ha] using hn)

/-- **C74** (benchmark): for the results of the benchmark command, see `C73`, each line stands for all bytes of all textures. -/
theorem C74_bytes (rate : Nat → Nat → Nat) (names : List String) (hn : names.Nodup) (results : List Result)
    (h : ∀ r ∈ results, IsReport rate r.size names r) (n : String) (hm : n ∈ names) :
    bytesOf results n = (results.map Result.size).sum := by
  unfold bytesOf
  congr 1
  refine List.map_congr_left fun r hr => ?_
  rw [filter_measured (h r hr).scenarios n, filter_nodup hn hm, Nat.mul_one]

/-- Two results with two scenarios each. -/
def exampleResults : List Result :=
  [⟨1000, [Scenario.new (fun n t => n / t) "Split/None" 1000 5 5, Scenario.new (fun n t => n / t) "Untransformed" 1000 4 0]⟩,
   ⟨3000, [Scenario.new (fun n t => n / t) "Split/None" 3000 20 10, Scenario.new (fun n t => n / t) "Untransformed" 3000 6 0]⟩]

/-- The names come from an unordered map; the order of the lines does not depend on it. -/
example : (overall (fun n t => n / t) ["Split/None", "Untransformed"] exampleResults).map (fun s => (s.name, s.combinedRate, s.combinedTime)) =
      [("Untransformed", 400, 10), ("Split/None", 100, 40)] ∧
    (overall (fun n t => n / t) ["Untransformed", "Split/None"] exampleResults).map (fun s => (s.name, s.combinedRate, s.combinedTime)) =
      [("Untransformed", 400, 10), ("Split/None", 100, 40)] := by
  simp [overall, List.mergeSort, List.MergeSort.Internal.splitInTwo, List.merge, groupStats, group, allScenarios, exampleResults,
    Scenario.new, throughput]

/-- Non-vacuity. -/
example : AreNames exampleResults ["Untransformed", "Split/None"] ∧
    ∀ r ∈ exampleResults, IsReport (fun n t => n / t) r.size ["Split/None", "Untransformed"] r := by
  refine ⟨⟨by decide, fun n => ?_⟩, ?_⟩
  · simp only [exampleResults, Scenario.new, List.mem_cons, List.not_mem_nil, or_false, exists_eq_or_imp, exists_eq_left]
    constructor
    · rintro (rfl | rfl) <;> simp
    · rintro ((rfl | rfl) | (rfl | rfl)) <;> simp
  · intro r hr
    simp only [exampleResults, List.mem_cons, List.not_mem_nil, or_false] at hr
    rcases hr with rfl | rfl
    · exact ⟨rfl, .cons (.of_new rfl) (.cons (.of_new rfl) .nil), _, rfl, rfl⟩
    · exact ⟨rfl, .cons (.of_new rfl) (.cons (.of_new rfl) .nil), _, rfl, rfl⟩

/-! ## Algorithms -/

/-- **C75** (names): the algorithm is recognized by the short and the long name in any case; anything else is an error. -/
theorem C75_names (lower : String → String) (s : String) :
    (algorithmFromStr lower s = .ok .zstandard ↔ lower s = "zstd" ∨ lower s = "zstandard") ∧
    (algorithmFromStr lower s = .ok .losslessTransformUtils ↔ lower s = "ltu" ∨ lower s = "lossless-transform-utils") ∧
    ((∃ e, algorithmFromStr lower s = .error e) ↔ lower s ∉ ["zstd", "zstandard", "ltu", "lossless-transform-utils"]) := by
  unfold algorithmFromStr
  generalize lower s = t
  split <;> simp_all

/-- The names printed are recognized. -/
theorem C75_printed (lower : String → String) (h1 : lower "ZStandard" = "zstandard")
    (h2 : lower "lossless-transform-utils" = "lossless-transform-utils") (a : Algorithm) :
    algorithmFromStr lower (algorithmName a) = .ok a := by
  cases a
  · exact (C75_names lower _).1.2 (.inr h1)
  · exact (C75_names lower _).2.1.2 (.inr h2)

/-- **C75** (levels): without options the estimator can be created, whatever the algorithm; the algorithm of the estimates is the one of the
compression unless it is given, and so is not affected by the level of the compression.  A level given for zstd is not checked before the
estimator is created: then it fails exactly outside 1 to 22. -/
theorem C75_levels (lib : Lib) (o : AlgorithmOptions) :
    (o.estimateAlgorithm = none → o.getEstimateAlgorithm = o.algorithm) ∧
    (∀ a, o.estimateAlgorithm = some a → o.getEstimateAlgorithm = a) ∧
    (o.level = none → o.algorithm = .zstandard → o.getLevel.toInt = 16) ∧
    (o.estimateLevel = none → o.getEstimateAlgorithm = .zstandard → o.getEstimateLevel.toInt = 3) ∧
    (o.estimateLevel = none → ∃ e : Estimator Unit CliError, createSizeEstimator lib o.getEstimateAlgorithm o.getEstimateLevel = .ok e) ∧
    (∀ level, o.estimateLevel = some level →
      ((∃ e : Estimator Unit CliError, createSizeEstimator lib o.getEstimateAlgorithm o.getEstimateLevel = .ok e) ↔
        o.getEstimateAlgorithm = .losslessTransformUtils ∨ (1 ≤ level.toInt ∧ level.toInt ≤ 22))) := by
  refine ⟨fun h => by simp [AlgorithmOptions.getEstimateAlgorithm, h], fun a h => by simp [AlgorithmOptions.getEstimateAlgorithm, h],
    fun h h' => by simp [AlgorithmOptions.getLevel, h, h', defaultLevel],
    fun h h' => by simp [AlgorithmOptions.getEstimateLevel, h, h', defaultEstimateLevel], ?_, ?_⟩
  · intro h
    unfold AlgorithmOptions.getEstimateLevel
    rw [h, Option.getD_none]
    cases o.getEstimateAlgorithm
    · exact ⟨_, rfl⟩
    · exact ⟨_, rfl⟩
  · intro level h
    unfold AlgorithmOptions.getEstimateLevel
    rw [h, Option.getD_some]
    cases o.getEstimateAlgorithm
    · unfold createSizeEstimator zstdNew
      by_cases hv : 1 ≤ level.toInt ∧ level.toInt ≤ 22
      · rw [if_pos hv]; exact ⟨fun _ => .inr hv, fun _ => ⟨_, rfl⟩⟩
      · rw [if_neg hv]; exact ⟨fun ⟨_, h⟩ => (nomatch h), fun h => by rcases h with h | h; exact (nomatch h); exact absurd h hv⟩
    · exact ⟨fun _ => .inl rfl, fun _ => ⟨_, rfl⟩⟩

/-- A level for zstd that fails only when the first texture is processed. -/
example : (AlgorithmOptions.getEstimateLevel { estimateLevel := some 0 }).toInt = 0 ∧
    (createSizeEstimator (σ := Unit) exampleLib .zstandard 0).toOption.isNone ∧
    ({ algorithm := .losslessTransformUtils } : AlgorithmOptions).getEstimateAlgorithm = .losslessTransformUtils := by
  decide

end Dlt.Props
