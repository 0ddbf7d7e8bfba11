import Verif.Model.DebugBench
import Verif.Props.DebugStats
import Verif.Props.CacheNames
import Verif.Props.CacheFiles
import Verif.Props.NormTransform
/-!
# C73: the benchmark commands, C74: their statistics, C75: algorithms and levels
-/

namespace Dlt.Props

open Dlt.Cache Dlt.DebugIo Dlt.DebugStats Dlt.DebugBench
open Dlt.Dds Dlt.FileFormats Dlt.FileIo Dlt.FileIo.Prog Dlt.Cli

/-! ## What the benchmark relies on -/

/-- zstd undoes what it did: what `compress` writes, `decompress` turns back into the same bytes, given room for them. -/
def Inverse (raw : Raw) : Prop := ∀ level x out, raw.compress level x = some out → raw.decompress out x.length = some x

/-- The cache of compressed data holds for the data in `D` only files that decompress to the data. -/
def Restorable (raw : Raw) (hash : Buf → BitVec 128) (D : Buf → Prop) (files : List Char → Option Buf) : Prop :=
  ∀ x, D x → ∀ level b, files (fileName ⟨hash x, level, .zstandard⟩) = some b → raw.decompress b x.length = some x

/-- No write to the cache stops half-way. -/
def WholeWrites (env : Answers) : Prop := ∀ k n, env.save k ≠ .cut n

/-- Memory, reading and compression succeed. -/
structure Unhindered (env : Answers) (raw : Raw) : Prop where
  memory : ∀ k n, (env.heap k n).isSome
  read : ∀ k, env.canRead k = true
  compress : ∀ level x, (raw.compress level x).isSome

/-- The format works on `data`: `T s` is the transformed texture. -/
structure Works {S : Type} (c : BenchCodec S) (D : Buf → Prop) (data : Buf) (T : S → Buf) : Prop where
  transform : ∀ out s, out.length = data.length → c.transform data out data.length s = some (T s)
  untransform : ∀ out s, out.length = data.length → c.untransform (T s) out data.length s = some data
  length : ∀ s, (T s).length = data.length
  given : D data
  shown : ∀ s, D (T s)
  auto : ∀ (est : Estimator Sizes CliError) out sizes, out.length = data.length → ∃ o sizes' r, c.auto est data out data.length sizes = some (o, sizes', r)

section
variable {S : Type} {c : BenchCodec S} {raw : Raw} {hash : Buf → BitVec 128} {env : Answers} {rate : Nat → Nat → Nat}
  {D : Buf → Prop} {data : Buf} {T : S → Buf}

theorem decompressData_eq {packed x plain : Buf} (h : raw.decompress packed x.length = some x) (hp : plain.length = x.length) :
    decompressData raw packed plain .zstandard = some (.ok x) := by
  unfold decompressData
  dsimp only
  rw [hp, h]
  simp only [st, Nat.zero_add, hp, Nat.le_refl, if_true, List.take_zero, List.nil_append, Option.map_some]
  rw [List.drop_of_length_le (by omega), List.append_nil]

theorem warmupLoop_eq (hw : Works c D data T) {packed : Buf} {s : S} (name : String) (h : raw.decompress packed (T s).length = some (T s)) :
    ∀ (n : Nat) (plain final : Buf) (st : Progress), plain.length = data.length → final.length = data.length →
      ∃ p f, warmupLoop c raw .zstandard packed data.length name s n plain final st =
        some ({ st with restored := List.replicate n ⟨name, T s, data⟩ ++ st.restored }, .ok (p, f)) ∧
        p.length = data.length ∧ f.length = data.length
  | 0, plain, final, st, hp, hf => ⟨plain, final, rfl, hp, hf⟩
  | n + 1, plain, final, st, hp, hf => by
    unfold warmupLoop
    rw [decompressData_eq h (by rw [hp, hw.length])]
    dsimp only
    rw [hw.untransform final s hf]
    dsimp only
    obtain ⟨p, f, h1, h2, h3⟩ := warmupLoop_eq hw name h n (T s) data { st with restored := ⟨name, T s, data⟩ :: st.restored } (hw.length s) rfl
    refine ⟨p, f, ?_, h2, h3⟩
    rw [h1, List.replicate_succ', List.append_assoc]
    rfl

theorem decompressLoop_eq {packed x : Buf} (h : raw.decompress packed x.length = some x) :
    ∀ (n : Nat) (plain : Buf), plain.length = x.length →
      ∃ p, decompressLoop raw .zstandard packed n plain = some p ∧ (n ≠ 0 → p = x)
  | 0, plain, hp => ⟨plain, rfl, fun h => absurd rfl h⟩
  | n + 1, plain, hp => by
    unfold decompressLoop
    rw [decompressData_eq h hp]
    dsimp only
    obtain ⟨p, h1, h2⟩ := decompressLoop_eq h n x rfl
    refine ⟨p, h1, fun _ => ?_⟩
    by_cases hn : n = 0
    · subst hn; exact (Option.some.inj h1).symm
    · exact h2 hn

theorem untransformLoop_eq (hw : Works c D data T) (name : String) (s : S) : ∀ (n : Nat) (final : Buf) (st : Progress), final.length = data.length →
    ∃ f, untransformLoop c (T s) data.length name s n final st =
      some ({ st with restored := List.replicate n ⟨name, T s, data⟩ ++ st.restored }, f)
  | 0, final, st, _ => ⟨final, rfl⟩
  | n + 1, final, st, hf => by
    unfold untransformLoop
    rw [hw.untransform final s hf]
    dsimp only
    obtain ⟨f, h1⟩ := untransformLoop_eq hw name s n data { st with restored := ⟨name, T s, data⟩ :: st.restored } rfl
    refine ⟨f, ?_⟩
    rw [h1, List.replicate_succ', List.append_assoc]
    rfl

/-- What a step does to the state apart from the record: the cache of compressed data stays faithful and no file changes. -/
structure Keeps (raw : Raw) (hash : Buf → BitVec 128) (D : Buf → Prop) (st st' : Progress) : Prop where
  faithful : Restorable raw hash D st.files → Restorable raw hash D st'.files
  kept : ∀ n b, st.files n = some b → st'.files n = some b

theorem Keeps.refl (st : Progress) (st' : Progress) (h : st'.files = st.files) : Keeps raw hash D st st' :=
  ⟨fun hf => by rw [h]; exact hf, fun n b hb => by rw [h]; exact hb⟩

theorem Keeps.trans {a b d : Progress} (h : Keeps raw hash D a b) (h' : Keeps raw hash D b d) : Keeps raw hash D a d :=
  ⟨fun hf => h'.faithful (h.faithful hf), fun n x hx => h'.kept n x (h.kept n x hx)⟩

theorem compressCached_spec (hi : NoCollision hash D) (hinv : Inverse raw) (hwr : WholeWrites env) (x : Buf) (hx : D x)
    (level : BitVec 32) (st : Progress) (hf : Restorable raw hash D st.files) :
    ∃ st' r, compressCached raw hash env x level .zstandard st = some (st', r) ∧ st'.restored = st.restored ∧
      Keeps raw hash D st st' ∧ (∀ packed, r = .ok packed → raw.decompress packed x.length = some x) ∧
      (Unhindered env raw → ∃ packed, r = .ok packed) ∧
      ((∀ k, env.save k = .done) → (∃ packed, r = .ok packed) →
        (st'.files (fileName ⟨hash x, level, .zstandard⟩)).isSome) := by
  unfold compressCached
  dsimp only
  rcases hfile : st.files (fileName ⟨hash x, level, .zstandard⟩) with _ | b
  · dsimp only
    unfold compressWith
    rcases hc : raw.compress level x with _ | out
    · exact ⟨_, _, rfl, rfl, Keeps.refl _ _ rfl, fun _ h => (nomatch h), fun hu => by
        have := hu.compress level x; rw [hc] at this; exact (nomatch this), fun _ ⟨_, h⟩ => (nomatch h)⟩
    · dsimp only
      refine ⟨_, _, rfl, rfl, ?_, fun p h => by cases h; exact hinv level x out hc, fun _ => ⟨_, rfl⟩, ?_⟩
      · have key : Keeps raw hash D st
            { st.next with
              files := setFile st.files (fileName ⟨hash x, level, .zstandard⟩) out
              sizes := st.sizes.insert ⟨hash x, level, .zstandard⟩ out.length } := by
          refine ⟨fun _ => ?_, ?_⟩
          · intro y hy level' b hb
            by_cases hk : (⟨hash x, level, .zstandard⟩ : Key) = ⟨hash y, level', .zstandard⟩
            · rw [← hk] at hb
              change setFile _ _ _ _ = _ at hb
              rw [setFile_same] at hb
              cases hb
              injection hk with h1 h2
              obtain rfl := hi x y hx hy h1
              exact hinv level x out hc
            · change setFile _ _ _ _ = _ at hb
              rw [setFile_other (Ne.symm hk)] at hb
              exact hf y hy level' b hb
          · intro n b hb
            change setFile _ _ _ _ = _
            unfold setFile
            by_cases hn : n = fileName ⟨hash x, level, .zstandard⟩
            · rw [hn, hfile] at hb; exact (nomatch hb)
            · rw [if_neg hn]; exact hb
        rcases hs : env.save st.asked with _ | _ | n
        · exact key
        · exact Keeps.refl _ _ rfl
        · exact absurd hs (hwr _ n)
      · intro hd _
        simp only [hd, setFile_same]
        rfl
  · dsimp only
    split
    · exact ⟨_, _, rfl, rfl, Keeps.refl _ _ rfl, fun p h => by cases h; exact hf x hx level b hfile, fun _ => ⟨_, rfl⟩,
        fun _ _ => by change (st.files _).isSome = true; rw [hfile]; rfl⟩
    · rename_i hr
      exact ⟨_, _, rfl, rfl, Keeps.refl _ _ rfl, fun _ h => (nomatch h), fun hu => absurd (hu.read _) hr, fun _ ⟨_, h⟩ => (nomatch h)⟩

/-- A result of a measured scenario: named `name`, for `len` bytes, with the sum of the two averages and the three throughputs that belong
to them. -/
def Measured (rate : Nat → Nat → Nat) (name : String) (len : Nat) (s : Scenario) : Prop :=
  ∃ d u, s.name = name ∧ s.decompressTime = d ∧ s.untransformTime = u ∧ s.combinedTime = d + u ∧
    s.decompressRate = (if d = 0 then 0 else rate len d) ∧ s.untransformRate = (if u = 0 then 0 else rate len u) ∧
    s.combinedRate = (if d + u = 0 then 0 else rate len (d + u))

theorem measured_new (name : String) (len d u : Nat) : Measured rate name len (Scenario.new rate name len d u) :=
  ⟨d, u, rfl, rfl, rfl, rfl, rfl, rfl, rfl⟩

theorem Measured.of_new {name : String} {len d u : Nat} {s : Scenario} (h : s = Scenario.new rate name len d u) : Measured rate name len s :=
  h ▸ measured_new name len d u

theorem processScenario_spec (hw : Works c D data T) (hh : env.heap.Wf) (hi : NoCollision hash D) (hinv : Inverse raw)
    (hwr : WholeWrites env) (cfg : DebugBench.Config) (ha : cfg.algorithm = .zstandard) (hit : cfg.iterations ≠ 0 ∨ cfg.dryRun = true)
    (name : String) (s : S) (st : Progress) (hf : Restorable raw hash D st.files) :
    ∃ st' r, processScenario c raw hash env rate cfg data name s st = some (st', r) ∧ Keeps raw hash D st st' ∧
      (∀ v, r = .ok v → cfg.dryRun = true → v = none ∧ st'.restored = st.restored) ∧
      (∀ v, r = .ok v → cfg.dryRun = false → (∃ x, v = some x ∧ Measured rate name data.length x) ∧
        st'.restored = List.replicate (cfg.iterations + cfg.warmup) ⟨name, T s, data⟩ ++ st.restored) ∧
      (∀ e, r = .error e → st'.restored = st.restored) ∧
      (Unhindered env raw → ∃ v, r = .ok v) ∧
      ((∀ k, env.save k = .done) → (∃ v, r = .ok v) → (st'.files (fileName ⟨hash (T s), cfg.level, .zstandard⟩)).isSome) := by
  unfold processScenario
  rcases h0 : env.heap st.asked data.length with _ | b0
  · exact ⟨_, _, rfl, Keeps.refl _ _ rfl, fun _ h => (nomatch h), fun _ h => (nomatch h), fun _ _ => rfl,
      fun hu => by have := hu.memory st.asked data.length; rw [h0] at this; exact (nomatch this), fun _ ⟨_, h⟩ => (nomatch h)⟩
  dsimp only
  rw [hw.transform b0 s (hh _ _ _ h0)]
  dsimp only
  obtain ⟨st1, r1, h1, h1r, h1k, h1d, h1u, h1s⟩ := compressCached_spec hi hinv hwr (T s) (hw.shown s) cfg.level st.next hf
  rw [ha, h1]
  have hk0 : Keeps raw hash D st st1 := (Keeps.refl st st.next rfl).trans h1k
  rcases r1 with e | packed
  · exact ⟨_, _, rfl, hk0, fun _ h => (nomatch h), fun _ h => (nomatch h), fun _ _ => h1r,
      fun hu => by obtain ⟨_, h⟩ := h1u hu; exact (nomatch h), fun _ ⟨_, h⟩ => (nomatch h)⟩
  have hdec := h1d packed rfl
  dsimp only
  by_cases hdry : cfg.dryRun = true
  · rw [if_pos hdry]
    exact ⟨_, _, rfl, hk0, fun v h _ => by cases h; exact ⟨rfl, h1r⟩, fun _ _ h => by rw [hdry] at h; exact (nomatch h),
      fun _ h => (nomatch h), fun _ => ⟨_, rfl⟩, fun hs _ => h1s hs ⟨_, rfl⟩⟩
  rw [if_neg hdry]
  have hit : cfg.iterations ≠ 0 := hit.resolve_right hdry
  rcases h2 : env.heap st1.asked data.length with _ | b1
  · exact ⟨_, _, rfl, hk0.trans (Keeps.refl _ _ rfl), fun _ h => (nomatch h), fun _ h => (nomatch h), fun _ _ => h1r,
      fun hu => by have := hu.memory st1.asked data.length; rw [h2] at this; exact (nomatch this), fun _ ⟨_, h⟩ => (nomatch h)⟩
  dsimp only
  rcases h3 : env.heap (st1.asked + 1) data.length with _ | b2
  · exact ⟨_, _, rfl, hk0.trans (Keeps.refl _ _ rfl), fun _ h => (nomatch h), fun _ h => (nomatch h), fun _ _ => h1r,
      fun hu => by have := hu.memory (st1.asked + 1) data.length; rw [h3] at this; exact (nomatch this), fun _ ⟨_, h⟩ => (nomatch h)⟩
  dsimp only
  obtain ⟨p, f, h4, h4p, h4f⟩ := warmupLoop_eq hw name hdec cfg.warmup b1 b2 st1.next.next (hh _ _ _ h2) (hh _ _ _ h3)
  rw [h4]
  dsimp only
  obtain ⟨p', h5, h5p⟩ := decompressLoop_eq hdec cfg.iterations p (by rw [h4p, hw.length])
  rw [h5]
  dsimp only
  rw [h5p hit]
  obtain ⟨f', h6⟩ := untransformLoop_eq hw name s cfg.iterations f
    { st1.next.next with restored := List.replicate cfg.warmup ⟨name, T s, data⟩ ++ st1.next.next.restored } h4f
  rw [h6]
  dsimp only
  simp only [average, if_neg hit]
  refine ⟨_, _, rfl, hk0.trans (Keeps.refl _ _ rfl), fun _ _ h => absurd h hdry, ?_, fun _ h => (nomatch h), fun _ => ⟨_, rfl⟩,
    fun hs _ => h1s hs ⟨_, rfl⟩⟩
  rintro v h _
  cases h
  refine ⟨⟨_, rfl, .of_new rfl⟩, ?_⟩
  change List.replicate _ _ ++ (List.replicate _ _ ++ st1.restored) = _
  rw [h1r, ← List.append_assoc, List.replicate_append_replicate]
  rfl

theorem processUntransformed_spec (hw : Works c D data T) (hh : env.heap.Wf) (hi : NoCollision hash D) (hinv : Inverse raw)
    (hwr : WholeWrites env) (cfg : DebugBench.Config) (ha : cfg.algorithm = .zstandard) (hit : cfg.iterations ≠ 0 ∨ cfg.dryRun = true)
    (name : String) (st : Progress) (hf : Restorable raw hash D st.files) :
    ∃ st' r, processUntransformed raw hash env rate cfg data name st = some (st', r) ∧ Keeps raw hash D st st' ∧
      st'.restored = st.restored ∧
      (∀ v, r = .ok v → cfg.dryRun = true → v = none) ∧
      (∀ v, r = .ok v → cfg.dryRun = false → ∃ x d, v = some x ∧ x = Scenario.new rate name data.length d 0) ∧
      (Unhindered env raw → ∃ v, r = .ok v) ∧
      ((∀ k, env.save k = .done) → (∃ v, r = .ok v) → (st'.files (fileName ⟨hash data, cfg.level, .zstandard⟩)).isSome) := by
  unfold processUntransformed
  obtain ⟨st1, r1, h1, h1r, h1k, h1d, h1u, h1s⟩ := compressCached_spec hi hinv hwr data hw.given cfg.level st hf
  rw [ha, h1]
  rcases r1 with e | packed
  · exact ⟨_, _, rfl, h1k, h1r, fun _ h => (nomatch h), fun _ h => (nomatch h),
      fun hu => by obtain ⟨_, h⟩ := h1u hu; exact (nomatch h), fun _ ⟨_, h⟩ => (nomatch h)⟩
  have hdec := h1d packed rfl
  dsimp only
  by_cases hdry : cfg.dryRun = true
  · rw [if_pos hdry]
    exact ⟨_, _, rfl, h1k, h1r, fun v h _ => by cases h; rfl, fun _ _ h => by rw [hdry] at h; exact (nomatch h), fun _ => ⟨_, rfl⟩,
      fun hs _ => h1s hs ⟨_, rfl⟩⟩
  rw [if_neg hdry]
  have hit : cfg.iterations ≠ 0 := hit.resolve_right hdry
  rcases h2 : env.heap st1.asked data.length with _ | b1
  · exact ⟨_, _, rfl, h1k.trans (Keeps.refl _ _ rfl), h1r, fun _ h => (nomatch h), fun _ h => (nomatch h),
      fun hu => by have := hu.memory st1.asked data.length; rw [h2] at this; exact (nomatch this), fun _ ⟨_, h⟩ => (nomatch h)⟩
  dsimp only
  have hwarm : ∀ (n : Nat) (plain : Buf), plain.length = data.length →
      ∃ p, warmupPlain raw .zstandard packed n plain = some (.ok p) ∧ p.length = data.length := by
    intro n
    induction n with
    | zero => exact fun plain hp => ⟨plain, rfl, hp⟩
    | succ n ih =>
      intro plain hp
      unfold warmupPlain
      rw [decompressData_eq hdec hp]
      exact ih data rfl
  obtain ⟨p, h3, h3p⟩ := hwarm cfg.warmup b1 (hh _ _ _ h2)
  rw [h3]
  dsimp only
  obtain ⟨p', h4, _⟩ := decompressLoop_eq hdec cfg.iterations p h3p
  rw [h4]
  dsimp only
  simp only [average, if_neg hit]
  exact ⟨_, _, rfl, h1k.trans (Keeps.refl _ _ rfl), h1r, fun _ _ h => absurd h hdry,
    fun v h _ => by cases h; exact ⟨_, _, rfl, rfl⟩, fun _ => ⟨_, rfl⟩, fun hs _ => h1s hs ⟨_, rfl⟩⟩

/-- The scenarios of a list, all measured, in order. -/
inductive AllMeasured (rate : Nat → Nat → Nat) (len : Nat) : List String → List Scenario → Prop where
  | nil : AllMeasured rate len [] []
  | cons {n ns s ss} (h : Measured rate n len s) (hs : AllMeasured rate len ns ss) : AllMeasured rate len (n :: ns) (s :: ss)

theorem AllMeasured.append {len : Nat} {ns ns' : List String} {ss ss' : List Scenario}
    (h : AllMeasured rate len ns ss) (h' : AllMeasured rate len ns' ss') : AllMeasured rate len (ns ++ ns') (ss ++ ss') := by
  induction h with
  | nil => exact h'
  | cons h _ ih => exact .cons h ih

theorem scenarioLoop_spec (hw : Works c D data T) (hh : env.heap.Wf) (hi : NoCollision hash D) (hinv : Inverse raw)
    (hwr : WholeWrites env) (cfg : DebugBench.Config) (ha : cfg.algorithm = .zstandard) (hit : cfg.iterations ≠ 0 ∨ cfg.dryRun = true) :
    ∀ (l : List (String × S)) (acc : List Scenario) (st : Progress), Restorable raw hash D st.files →
    ∃ st' r, scenarioLoop c raw hash env rate cfg data l acc st = some (st', r) ∧ Keeps raw hash D st st' ∧
      (∀ v, r = .ok v → cfg.dryRun = true → v = acc ∧ st'.restored = st.restored) ∧
      (∀ v, r = .ok v → cfg.dryRun = false → (∃ ss, v = acc ++ ss ∧ AllMeasured rate data.length (l.map Prod.fst) ss) ∧
        st'.restored = (l.reverse.flatMap fun e => List.replicate (cfg.iterations + cfg.warmup) ⟨e.1, T e.2, data⟩) ++ st.restored) ∧
      (∀ x ∈ st'.restored, x ∈ st.restored ∨ ∃ e ∈ l, x = ⟨e.1, T e.2, data⟩) ∧
      (Unhindered env raw → ∃ v, r = .ok v) ∧
      ((∀ k, env.save k = .done) → (∃ v, r = .ok v) → ∀ e ∈ l, (st'.files (fileName ⟨hash (T e.2), cfg.level, .zstandard⟩)).isSome)
  | [], acc, st, hf => ⟨st, .ok acc, rfl, Keeps.refl _ _ rfl, fun v h _ => by cases h; exact ⟨rfl, rfl⟩,
      fun v h _ => by cases h; exact ⟨⟨[], by simp, .nil⟩, by simp⟩, fun x hx => .inl hx, fun _ => ⟨_, rfl⟩, fun _ _ e he => by simp at he⟩
  | (name, s) :: rest, acc, st, hf => by
    unfold scenarioLoop
    obtain ⟨st1, r1, h1, h1k, h1d, h1m, h1e, h1u, h1s⟩ :=
      processScenario_spec (rate := rate) hw hh hi hinv hwr cfg ha hit name s st hf
    rw [h1]
    rcases r1 with e | v
    · refine ⟨_, _, rfl, h1k, fun _ h => (nomatch h), fun _ h => (nomatch h), ?_, fun hu => by obtain ⟨_, h⟩ := h1u hu; exact (nomatch h),
        fun _ ⟨_, h⟩ => (nomatch h)⟩
      intro x hx
      rw [h1e e rfl] at hx
      exact .inl hx
    by_cases hdry : cfg.dryRun = true
    · obtain ⟨rfl, h1r⟩ := h1d v rfl hdry
      dsimp only
      obtain ⟨st2, r2, h2, h2k, h2d, _, h2x, h2u, h2s⟩ := scenarioLoop_spec hw hh hi hinv hwr cfg ha hit rest acc st1 (h1k.faithful hf)
      refine ⟨st2, r2, h2, h1k.trans h2k, fun v h hd => ?_, fun _ _ h => by rw [hdry] at h; exact (nomatch h), ?_, h2u, ?_⟩
      · obtain ⟨h3, h4⟩ := h2d v h hd
        exact ⟨h3, h4.trans h1r⟩
      · intro x hx
        rcases h2x x hx with h | ⟨e, he, h⟩
        · rw [h1r] at h; exact .inl h
        · exact .inr ⟨e, by simp [he], h⟩
      · intro hs hr e he
        rcases List.mem_cons.1 he with rfl | he
        · have := h1s hs ⟨_, rfl⟩
          obtain ⟨b, hb⟩ := Option.isSome_iff_exists.1 this
          dsimp only
          rw [h2k.kept _ _ hb]; rfl
        · exact h2s hs hr e he
    · have hdry : cfg.dryRun = false := by simpa using hdry
      obtain ⟨⟨x, rfl, hx⟩, h1r⟩ := h1m v rfl hdry
      dsimp only
      obtain ⟨st2, r2, h2, h2k, _, h2m, h2x, h2u, h2s⟩ :=
        scenarioLoop_spec hw hh hi hinv hwr cfg ha hit rest (acc ++ [x]) st1 (h1k.faithful hf)
      refine ⟨st2, r2, h2, h1k.trans h2k, fun _ _ h => by rw [hdry] at h; exact (nomatch h), fun v h hd => ?_, ?_, h2u, ?_⟩
      · obtain ⟨⟨ss, h3, h4⟩, h5⟩ := h2m v h hd
        refine ⟨⟨x :: ss, by rw [h3, List.append_assoc]; rfl, .cons hx h4⟩, ?_⟩
        rw [h5, h1r, List.reverse_cons, List.flatMap_append, List.append_assoc]
        simp
      · intro y hy
        rcases h2x y hy with h | ⟨e, he, h⟩
        · rw [h1r] at h
          rcases List.mem_append.1 h with h | h
          · exact .inr ⟨(name, s), by simp, List.eq_of_mem_replicate h⟩
          · exact .inl h
        · exact .inr ⟨e, by simp [he], h⟩
      · intro hs hr e he
        rcases List.mem_cons.1 he with rfl | he
        · have := h1s hs ⟨_, rfl⟩
          obtain ⟨b, hb⟩ := Option.isSome_iff_exists.1 this
          dsimp only
          rw [h2k.kept _ _ hb]; rfl
        · exact h2s hs hr e he

/-- The search of the format succeeds on `data`, whatever is in the cache of sizes. -/
def SearchSucceeds (c : BenchCodec S) (lib : Lib) (hash : Buf → BitVec 128) (level : BitVec 32) (a : Algorithm) (data : Buf) : Prop :=
  ∀ (buf : Buf) (sizes : Sizes), buf.length = data.length → ∃ sizes' s, determineBest c.toCodec lib hash level a data (some buf) sizes = some (sizes', .ok s)

theorem determineBest_total (hw : Works c D data T) (hh : env.heap.Wf) (lib : Lib) (level : BitVec 32) (a : Algorithm) (k : Nat)
    (sizes : Sizes) : ∃ sizes' r, determineBest c.toCodec lib hash level a data (env.heap k data.length) sizes = some (sizes', r) := by
  unfold determineBest
  rcases createSizeEstimator (σ := Unit) lib a level with e | inner
  · exact ⟨_, _, rfl⟩
  rcases h : env.heap k data.length with _ | buf
  · exact ⟨_, _, rfl⟩
  obtain ⟨o, sizes', r, h1⟩ := hw.auto (cachedEstimator hash level a inner) buf sizes (hh _ _ _ h)
  dsimp only
  rw [h1]
  exact ⟨_, _, rfl⟩

/-- What the benchmark of a texture of `len` bytes reports: the size and one result for each of the names. -/
structure IsReport (rate : Nat → Nat → Nat) (len : Nat) (names : List String) (r : Result) : Prop where
  size : r.size = len
  scenarios : AllMeasured rate len names r.scenarios
  /-- the last one, without transform, has spent no time on it -/
  last : ∃ s, r.scenarios.getLast? = some s ∧ s.untransformTime = 0

theorem processTexture_spec (hw : Works c D data T) (hh : env.heap.Wf) (hi : NoCollision hash D) (hinv : Inverse raw)
    (hwr : WholeWrites env) (lib : Lib) (cfg : DebugBench.Config) (ha : cfg.algorithm = .zstandard)
    (hit : cfg.iterations ≠ 0 ∨ cfg.dryRun = true) (st : Progress) (hf : Restorable raw hash D st.files) :
    ∃ st' r, processTexture c lib raw hash env rate cfg data st = some (st', r) ∧ Keeps raw hash D st st' ∧
      (∀ v, r = .ok v → cfg.dryRun = true → v = none ∧ st'.restored = st.restored) ∧
      (∀ v, r = .ok v → cfg.dryRun = false →
        (∃ res, v = some res ∧ IsReport rate data.length ("API Recommended" :: c.scenarios.map Prod.fst ++ ["Untransformed"]) res) ∧
        ∃ best, st'.restored = ((("API Recommended", best) :: c.scenarios).reverse.flatMap fun e =>
          List.replicate (cfg.iterations + cfg.warmup) ⟨e.1, T e.2, data⟩) ++ st.restored) ∧
      (∀ x ∈ st'.restored, x ∈ st.restored ∨ ∃ e : String × S, (e.1 = "API Recommended" ∨ e ∈ c.scenarios) ∧ x = ⟨e.1, T e.2, data⟩) ∧
      (Unhindered env raw → SearchSucceeds c lib hash cfg.estimateLevel cfg.estimateAlgorithm data → ∃ v, r = .ok v) ∧
      ((∀ k, env.save k = .done) → (∃ v, r = .ok v) → (∀ e ∈ c.scenarios,
        (st'.files (fileName ⟨hash (T e.2), cfg.level, .zstandard⟩)).isSome) ∧
        (st'.files (fileName ⟨hash data, cfg.level, .zstandard⟩)).isSome) := by
  unfold processTexture
  obtain ⟨sizes', r0, h0⟩ := determineBest_total (hash := hash) hw hh lib cfg.estimateLevel cfg.estimateAlgorithm st.asked st.sizes
  rw [h0]
  rcases r0 with e | best
  · refine ⟨_, _, rfl, Keeps.refl _ _ rfl, fun _ h => (nomatch h), fun _ h => (nomatch h), fun x hx => .inl hx, fun hu hs => ?_,
      fun _ ⟨_, h⟩ => (nomatch h)⟩
    obtain ⟨buf, hb⟩ := Option.isSome_iff_exists.1 (hu.memory st.asked data.length)
    obtain ⟨_, _, h⟩ := hs buf st.sizes (hh _ _ _ hb)
    rw [hb] at h0
    rw [h] at h0
    exact (nomatch h0)
  dsimp only
  obtain ⟨st1, r1, h1, h1k, h1d, h1m, h1x, h1u, h1s⟩ := scenarioLoop_spec (rate := rate) hw hh hi hinv hwr cfg ha hit
    (("API Recommended", best) :: c.scenarios) [] { st.next with sizes := sizes' } hf
  have hk1 : Keeps raw hash D st st1 := (Keeps.refl st { st.next with sizes := sizes' } rfl).trans h1k
  have h1x : ∀ x ∈ st1.restored, x ∈ st.restored ∨
      ∃ e : String × S, (e.1 = "API Recommended" ∨ e ∈ c.scenarios) ∧ x = ⟨e.1, T e.2, data⟩ := by
    intro x hx
    rcases h1x x hx with h | ⟨e, he, h⟩
    · exact .inl h
    · rcases List.mem_cons.1 he with rfl | he
      · exact .inr ⟨_, .inl rfl, h⟩
      · exact .inr ⟨e, .inr he, h⟩
  rw [h1]
  rcases r1 with e | v1
  · exact ⟨_, _, rfl, hk1, fun _ h => (nomatch h), fun _ h => (nomatch h), h1x, fun hu _ => by
      obtain ⟨_, h⟩ := h1u hu; exact (nomatch h), fun _ ⟨_, h⟩ => (nomatch h)⟩
  dsimp only
  obtain ⟨st2, r2, h2, h2k, h2r, h2d, h2m, h2u, h2s⟩ := processUntransformed_spec (rate := rate) hw hh hi hinv hwr cfg ha hit
    "Untransformed" st1 (hk1.faithful hf)
  rw [h2]
  rcases r2 with e | v2
  · exact ⟨_, _, rfl, hk1.trans h2k, fun _ h => (nomatch h), fun _ h => (nomatch h), by rw [h2r]; exact h1x, fun hu _ => by
      obtain ⟨_, h⟩ := h2u hu; exact (nomatch h), fun _ ⟨_, h⟩ => (nomatch h)⟩
  dsimp only
  refine ⟨_, _, rfl, hk1.trans h2k, ?_, ?_, by rw [h2r]; exact h1x, fun _ _ => ⟨_, rfl⟩, ?_⟩
  · intro v h hdry
    rw [if_pos hdry] at h
    cases h
    exact ⟨rfl, h2r.trans (h1d v1 rfl hdry).2⟩
  · intro v h hdry
    rw [if_neg (by rw [hdry]; decide)] at h
    cases h
    obtain ⟨⟨ss, h3, h4⟩, h5⟩ := h1m v1 rfl hdry
    obtain ⟨x, d, rfl, hx⟩ := h2m v2 rfl hdry
    refine ⟨⟨_, rfl, rfl, ?_, x, by simp, by rw [hx]; rfl⟩, best, ?_⟩
    · rw [h3]
      exact AllMeasured.append h4 (.cons (.of_new hx) .nil)
    · rw [h2r, h5]
      rfl
  · intro hs _
    refine ⟨fun e he => ?_, h2s hs ⟨_, rfl⟩⟩
    have := h1s hs ⟨_, rfl⟩ e (by simp [he])
    obtain ⟨b, hb⟩ := Option.isSome_iff_exists.1 this
    rw [h2k.kept _ _ hb]; rfl

end

/-! ## Files -/

/-- The texture of a file. -/
def textureOf (b : Buf) : Buf := slice b (headerSize b) (reckoned b)

/-- The file at `p` holds `b`, can be read, is not excluded by its extension and holds a texture in this format. -/
structure Found (os : Os) (files : Path → Option Buf) (f : DebugIo.Format) (p : Path) (b : Buf) : Prop where
  file : files p = some b
  canOpen : os.canOpen p = true
  canSize : os.canSize p = true
  canMap : os.canMap p b.length = true
  extension : extractLowercaseExtension os p = none ∨ extractLowercaseExtension os p = some "dds"
  texture : HoldsTexture f b

theorem Found.unique {os : Os} {files : Path → Option Buf} {f : DebugIo.Format} {p : Path} {b b' : Buf}
    (h : Found os files f p b) (h' : Found os files f p b') : b = b' := Option.some.inj (h.file.symm.trans h'.file)

theorem Found.length {os : Os} {files : Path → Option Buf} {f : DebugIo.Format} {p : Path} {b : Buf}
    (h : Found os files f p b) : (textureOf b).length = reckoned b := slice_length_of_le (by have := h.texture.complete; omega)

theorem Found.blocks {os : Os} {files : Path → Option Buf} {f : DebugIo.Format} {p : Path} {b : Buf}
    (h : Found os files f p b) : (textureOf b).length % bytesPerBlock f = 0 := by
  rw [h.length]; exact reckoned_mod h.texture.format

theorem run_bind' {σ α β : Type} (os : Os) (f : α → Prog σ β) : ∀ (x : Prog σ α) (w : World σ),
    run os (x.bind f) w =
      match run os x w with
      | (w, none) => (w, none)
      | (w, some a) => run os (f a) w
  | .ret a, w => rfl
  | .panic, w => rfl
  | .op s k, w => by
    change run os (.op s fun b => (k b).bind f) w = _
    rw [run_op, run_op]
    rcases exec os s w with ⟨w', _ | b⟩
    · rfl
    · exact run_bind' os f (k b) w'

theorem bind_assoc' {σ α β γ : Type} (f : α → Prog σ β) (g : β → Prog σ γ) : ∀ x : Prog σ α,
    (x.bind f).bind g = x.bind fun a => (f a).bind g
  | .ret _ => rfl
  | .panic => rfl
  | .op s k => by
    change Prog.op s _ = Prog.op s _
    congr 1
    funext b
    exact bind_assoc' f g (k b)

theorem run_withInput_bind {σ α β : Type} {os : Os} {p : Path} {b : Buf} {w : World σ} (h : Readable os w p b)
    (k : Buf → Prog σ (Except FileError α)) (F : Except FileError α → Prog σ β) :
    run os ((withInput os p k).bind F) w = run os ((k b).bind F) w := by
  rw [run_bind', run_bind', run_withInput h]

theorem run_call {σ α β γ : Type} {os : Os} {r : Option β} {b : β} (hr : r = some b) (k : β → Prog σ α) (F : α → Prog σ γ)
    (w : World σ) :
    run os ((Prog.op (.call fun st => r.map fun b => (st, b)) k).bind F) w = run os ((k b).bind F) w := by
  change run os (.op _ fun b => (k b).bind F) w = _
  rw [run_op]
  simp [exec, hr]

/-- **C66** (extraction with any test): a file that holds a texture of the format is given to the test as this texture, and an
error of the test becomes `NoSupportedHandler`; for other files the test is not run, nothing changes, and an error is returned. -/
theorem C66_extract {σ : Type} (os : Os) (pl : Platform) (hw : Wide pl) (hc : pl.overflowChecks = false)
    (f : DebugIo.Format) (p : Path) (test : Buf → Embed.TransformFormat → Prog σ (Except CliError Unit)) (w : World σ)
    (hl : ∀ b, w.files p = some b → b.length < 2 ^ 32 ∧ b.length ≤ os.usizeMax) :
    (∀ b, Found os w.files f p b → ∃ g, run os (extractBlocksFromFile os pl p f.filter test) w =
      run os ((test (textureOf b) g).bind fun r => .ret (r.mapError fun _ => .fileOperation (.transform .noSupportedHandler))) w) ∧
    ((¬ ∃ b, Found os w.files f p b) → ∃ e, run os (extractBlocksFromFile os pl p f.filter test) w = (w, some (.error e))) := by
  constructor
  · intro b hb
    obtain ⟨hl1, hl2⟩ := hl b hb.file
    have hy : canHandle pl b (extractLowercaseExtension os p) = some true :=
      ((((C33_detection pl b (extractLowercaseExtension os p)).2 hb.extension).2 hb.texture.dds).2 hc)
    obtain ⟨info, hi, hlen⟩ := (C32_size_reported pl b hb.texture.dds).2 (.inl hc)
    have h54 := (C54_extraction pl hw b f.filter).2 info hi
    obtain ⟨g, hg, hp⟩ := (passes_filter f b).2 hb.texture.format
    obtain ⟨_, _, hlong⟩ := (h54.2 g hg).2 hp
    have hcomp := hb.texture.complete
    have hcap : info.dataLength.toNat = reckoned b := by
      rw [hlen]
      exact Nat.min_eq_left (by unfold reckoned at hcomp; omega)
    rw [hcap] at hlong
    refine ⟨g, ?_⟩
    unfold extractBlocksFromFile extractBlocksFromFileFormat
    rw [run_withInput_bind ⟨hb.file, hb.canOpen, hb.canSize, hb.canMap, hl2⟩]
    refine (run_call hy _ _ w).trans ?_
    refine (run_call (hlong hcomp) _ _ w).trans ?_
    dsimp only
    rw [bind_assoc', bind_assoc']
    congr 2
    funext r
    cases r <;> rfl
  · intro hno
    suffices h : ∃ e, Reads os w.files (extractBlocksFromFile os pl p f.filter test) (.error e) by
      obtain ⟨e, he⟩ := h
      exact ⟨e, he.run w rfl⟩
    by_cases hr : ∃ b, w.files p = some b ∧ os.canOpen p = true ∧ os.canSize p = true ∧ os.canMap p b.length = true
    swap
    · obtain ⟨e, he⟩ := reads_withInput_error (σ := σ) (fun b hb => (hl b hb).2) hr
        (fun data => extractLoop data (extractLowercaseExtension os p) f.filter
          (fun data format => (test data format).bind fun r => .ret (r.mapError fun _ => .noSupportedHandler)) (DebugIo.allHandlers pl))
      exact ⟨.fileOperation (.io e), he.bind (.ret _)⟩
    obtain ⟨b, hf, h1, h2, h3⟩ := hr
    obtain ⟨hl1, hl2⟩ := hl b hf
    suffices h : ∃ e : FileError, Reads os w.files (extractLoop (σ := σ) b (extractLowercaseExtension os p) f.filter
        (fun data format => (test data format).bind fun r => .ret (r.mapError fun _ => .noSupportedHandler))
          (DebugIo.allHandlers pl)) (.error e) by
      obtain ⟨e, he⟩ := h
      exact ⟨.fileOperation e, (reads_withInput_ok hf h1 h2 h3 hl2 he).bind (.ret _)⟩
    have h33 := C33_detection pl b (extractLowercaseExtension os p)
    by_cases he : extractLowercaseExtension os p = none ∨ extractLowercaseExtension os p = some "dds"
    swap
    · rw [not_or] at he
      exact ⟨_, reads_call (h33.1 he.1 he.2) (.ret _)⟩
    by_cases hd : IsDds b
    swap
    · exact ⟨_, reads_call ((h33.2 he).1 hd) (.ret _)⟩
    have hy := ((h33.2 he).2 hd).2 hc
    obtain ⟨info, hi, hlen⟩ := (C32_size_reported pl b hd).2 (.inl hc)
    have h54 := (C54_extraction pl hw b f.filter).2 info hi
    by_cases hcl : classify b = ddsName f
    · obtain ⟨g, hg, hp⟩ := (passes_filter f b).2 hcl
      obtain ⟨_, hshort, _⟩ := (h54.2 g hg).2 hp
      by_cases hcomp : headerSize b + reckoned b ≤ b.length
      · exact absurd ⟨b, hf, h1, h2, h3, he, hd, hcl, hcomp⟩ hno
      · refine ⟨_, reads_call hy (reads_call (hshort ?_) (.ret _))⟩
        rw [hlen]
        unfold reckoned at hcomp
        have : 0 < headerSize b := by unfold headerSize; split <;> omega
        omega
    · rcases hs : sameName (classify b) with _ | g
      · exact ⟨_, reads_call hy (reads_call (h54.1 hs).1 (.ret _))⟩
      · exact ⟨_, reads_call hy (reads_call ((h54.2 g hs).1 fun hp => hcl ((passes_filter f b).1 ⟨g, hs, hp⟩)).1 (.ret _))⟩

/-! ## The command -/

/-- The results `rs` are those of the entries in order; entries for which `must` does not hold may be left out. -/
inductive Tally {R : Type} (report : Path → R → Prop) (must : Path → Prop) : List Path → List R → Prop where
  | nil : Tally report must [] []
  | skip {p ps rs} (h : ¬ must p) (hs : Tally report must ps rs) : Tally report must (p :: ps) rs
  | one {p ps r rs} (h : report p r) (hs : Tally report must ps rs) : Tally report must (p :: ps) (r :: rs)

section
variable {S : Type} {c : BenchCodec S} {raw : Raw} {hash : Buf → BitVec 128} {env : Answers} {rate : Nat → Nat → Nat}
  {D : Buf → Prop} {T : Buf → S → Buf} {os : Os} {pl : Platform} {f : DebugIo.Format}

theorem length_flatMap_replicate {α β : Type} (k : Nat) (g : α → β) : ∀ l : List α,
    (l.flatMap fun e => List.replicate k (g e)).length = l.length * k
  | [] => by simp
  | a :: l => by
    rw [List.flatMap_cons, List.length_append, length_flatMap_replicate k g l, List.length_replicate, List.length_cons, Nat.add_mul]
    omega

/-- The names of the results for a texture. -/
def benchNames (c : BenchCodec S) : List String := "API Recommended" :: c.scenarios.map Prod.fst ++ ["Untransformed"]

/-- A run of untransform in the benchmark of `data`: in a fixed scenario or with the settings recommended, it read the transform of
the texture with these settings and restored the texture. -/
def RanOn (c : BenchCodec S) (T : Buf → S → Buf) (data : Buf) (x : Ran) : Prop :=
  ∃ s, (x.scenario = "API Recommended" ∨ (x.scenario, s) ∈ c.scenarios) ∧ x.source = T data s ∧ x.result = data

theorem processFile_spec (hwide : Wide pl) (hov : pl.overflowChecks = false) (hh : env.heap.Wf) (hi : NoCollision hash D)
    (hinv : Inverse raw) (hwr : WholeWrites env) (lib : Lib) (cfg : DebugBench.Config) (ha : cfg.algorithm = .zstandard)
    (hit : cfg.iterations ≠ 0 ∨ cfg.dryRun = true) (p : Path) (w : World (Progress × Option Result))
    (hl : ∀ b, w.files p = some b → b.length < 2 ^ 32 ∧ b.length ≤ os.usizeMax) (hf : Restorable raw hash D w.st.1.files)
    (hwk : ∀ b, Found os w.files f p b → Works c D (textureOf b) (T (textureOf b))) :
    ∃ st' r, run os (DebugBench.processFile os pl f c lib raw hash env rate cfg p) w = ({ w with st := st' }, some r) ∧
      Keeps raw hash D w.st.1 st'.1 ∧
      (∀ x ∈ st'.1.restored, x ∈ w.st.1.restored ∨ ∃ b, Found os w.files f p b ∧ RanOn c T (textureOf b) x) ∧
      ((¬ ∃ b, Found os w.files f p b) → (∃ e, r = .error e) ∧ st'.1 = w.st.1) ∧
      (∀ b, Found os w.files f p b →
        (∀ v, r = .ok v → cfg.dryRun = true → v = none ∧ st'.1.restored = w.st.1.restored) ∧
        (∀ v, r = .ok v → cfg.dryRun = false → (∃ res, v = some res ∧ IsReport rate (reckoned b) (benchNames c) res) ∧
          st'.1.restored.length = (c.scenarios.length + 1) * (cfg.iterations + cfg.warmup) + w.st.1.restored.length) ∧
        (Unhindered env raw → SearchSucceeds c lib hash cfg.estimateLevel cfg.estimateAlgorithm (textureOf b) → ∃ v, r = .ok v) ∧
        ((∀ k, env.save k = .done) → (∃ v, r = .ok v) → (∀ e ∈ c.scenarios,
          (st'.1.files (fileName ⟨hash (T (textureOf b) e.2), cfg.level, .zstandard⟩)).isSome) ∧
          (st'.1.files (fileName ⟨hash (textureOf b), cfg.level, .zstandard⟩)).isSome)) := by
  unfold DebugBench.processFile
  rw [run_op]
  simp only [exec, Option.map_some]
  generalize hw1 : ({ w with st := (w.st.1, if cfg.dryRun = true then none else some ⟨0, []⟩) } :
    World (Progress × Option Result)) = w1
  have hfl : w1.files = w.files := by rw [← hw1]
  have hst : w1.st.1 = w.st.1 := by rw [← hw1]
  have hback : ∀ st', ({ w1 with st := st' } : World (Progress × Option Result)) = { w with st := st' } := by
    intro st'; rw [← hw1]
  rw [run_bind']
  have hext := C66_extract (σ := Progress × Option Result) os pl hwide hov f p (fun data _ =>
    .op (.call fun st => (processTexture c lib raw hash env rate cfg data st.1).map (fillResult st.2)) .ret) w1
    (by rw [hfl]; exact hl)
  rw [hfl] at hext
  by_cases hfound : ∃ b, Found os w.files f p b
  · obtain ⟨b, hb⟩ := hfound
    obtain ⟨g, hrun⟩ := hext.1 b hb
    rw [hrun, run_bind', run_op]
    obtain ⟨st', r, h1, hk, hd, hm, hx, hu, hs⟩ := processTexture_spec (rate := rate) (hwk b hb) hh hi hinv hwr lib cfg ha hit w1.st.1
      (by rw [hst]; exact hf)
    rw [hb.length] at hm
    simp only [exec, h1, Option.map_some]
    rw [hst] at hk hd hm hx
    have hx' : ∀ x ∈ st'.restored, x ∈ w.st.1.restored ∨ ∃ b, Found os w.files f p b ∧ RanOn c T (textureOf b) x := fun x h =>
      (hx x h).imp_right fun ⟨e, he, h⟩ => ⟨b, hb, e.2, by rw [h]; exact he, by rw [h], by rw [h]⟩
    rcases r with e | v
    · refine ⟨(st', w1.st.2), _, by simp only [fillResult, run, Except.mapError]; rw [hback], hk, hx', fun h => absurd ⟨b, hb⟩ h, ?_⟩
      intro b' hb'
      obtain rfl := hb.unique hb'
      exact ⟨fun _ h => (nomatch h), fun _ h => (nomatch h), fun h1 h2 => by obtain ⟨_, h⟩ := hu h1 h2; exact (nomatch h),
        fun _ ⟨_, h⟩ => (nomatch h)⟩
    · refine ⟨(st', v), .ok v, by simp only [fillResult, run, Except.mapError, exec]; rw [hback], hk, hx', fun h => absurd ⟨b, hb⟩ h, ?_⟩
      intro b' hb'
      obtain rfl := hb.unique hb'
      refine ⟨fun v' h hdry => ?_, fun v' h hdry => ?_, fun _ _ => ⟨_, rfl⟩, fun h _ => hs h ⟨_, rfl⟩⟩
      · cases h; exact hd v rfl hdry
      · cases h
        obtain ⟨h2, best, h3⟩ := hm v rfl hdry
        refine ⟨h2, ?_⟩
        rw [h3, List.length_append, length_flatMap_replicate, List.length_reverse, List.length_cons]
  · obtain ⟨e, hrun⟩ := hext.2 hfound
    rw [hrun]
    refine ⟨w1.st, .error e, by simp only [run]; rw [← hback], ?_, ?_, fun _ => ⟨⟨e, rfl⟩, hst⟩, fun b hb => absurd ⟨b, hb⟩ hfound⟩
    · exact Keeps.refl _ _ (by rw [hst])
    · intro x hx; rw [hst] at hx; exact .inl hx

theorem benchLoop_spec (hwide : Wide pl) (hov : pl.overflowChecks = false) (hh : env.heap.Wf) (hi : NoCollision hash D)
    (hinv : Inverse raw) (hwr : WholeWrites env) (lib : Lib) (cfg : DebugBench.Config) (ha : cfg.algorithm = .zstandard)
    (hit : cfg.iterations ≠ 0 ∨ cfg.dryRun = true) :
    ∀ (entries : List Path) (acc : List Result) (w : World (Progress × Option Result)),
    (∀ p ∈ entries, ∀ b, w.files p = some b → b.length < 2 ^ 32 ∧ b.length ≤ os.usizeMax) → Restorable raw hash D w.st.1.files →
    (∀ p ∈ entries, ∀ b, Found os w.files f p b → Works c D (textureOf b) (T (textureOf b))) →
    ∃ st' rs, run os (benchLoop os pl f c lib raw hash env rate cfg entries acc) w = ({ w with st := st' }, some (acc ++ rs)) ∧
      Keeps raw hash D w.st.1 st'.1 ∧
      (∀ x ∈ st'.1.restored, x ∈ w.st.1.restored ∨ ∃ p ∈ entries, ∃ b, Found os w.files f p b ∧ RanOn c T (textureOf b) x) ∧
      (cfg.dryRun = true → rs = []) ∧
      (cfg.dryRun = false → Tally (fun p r => ∃ b, Found os w.files f p b ∧ IsReport rate (reckoned b) (benchNames c) r)
        (fun p => Unhindered env raw ∧ ∃ b, Found os w.files f p b ∧
          SearchSucceeds c lib hash cfg.estimateLevel cfg.estimateAlgorithm (textureOf b)) entries rs) ∧
      (Unhindered env raw → (∀ p ∈ entries, ∀ b, Found os w.files f p b →
        SearchSucceeds c lib hash cfg.estimateLevel cfg.estimateAlgorithm (textureOf b)) →
        st'.1.restored.length = w.st.1.restored.length + rs.length * ((c.scenarios.length + 1) * (cfg.iterations + cfg.warmup)) ∧
        ((∀ k, env.save k = .done) → ∀ p ∈ entries, ∀ b, Found os w.files f p b → (∀ e ∈ c.scenarios,
          (st'.1.files (fileName ⟨hash (T (textureOf b) e.2), cfg.level, .zstandard⟩)).isSome) ∧
          (st'.1.files (fileName ⟨hash (textureOf b), cfg.level, .zstandard⟩)).isSome))
  | [], acc, w, _, _, _ => ⟨w.st, [], by simp [benchLoop, run], Keeps.refl _ _ rfl, fun x hx => .inl hx, fun _ => rfl, fun _ => .nil,
      fun _ _ => ⟨by simp, fun _ p hp => by simp at hp⟩⟩
  | p :: ps, acc, w, hl, hf, hwk => by
    unfold benchLoop
    rw [run_bind']
    obtain ⟨st1, r, h1, h1k, h1x, h1n, h1f⟩ := processFile_spec (rate := rate) hwide hov hh hi hinv hwr lib cfg ha hit p w
      (hl p (by simp)) hf (hwk p (by simp))
    rw [h1]
    have tail := fun acc' => benchLoop_spec hwide hov hh hi hinv hwr lib cfg ha hit ps acc' { w with st := st1 }
      (fun q hq => hl q (by simp [hq])) (h1k.faithful hf) (fun q hq => hwk q (by simp [hq]))
    have mem : ∀ (st' : Progress × Option Result),
        (∀ x ∈ st'.1.restored, x ∈ st1.1.restored ∨ ∃ p ∈ ps, ∃ b, Found os w.files f p b ∧ RanOn c T (textureOf b) x) →
        ∀ x ∈ st'.1.restored, x ∈ w.st.1.restored ∨ ∃ q ∈ p :: ps, ∃ b, Found os w.files f q b ∧ RanOn c T (textureOf b) x := by
      intro st' h x hx
      rcases h x hx with h | ⟨q, hq, h⟩
      · exact (h1x x h).imp_right fun h => ⟨p, by simp, h⟩
      · exact .inr ⟨q, by simp [hq], h⟩
    have stays : ∀ (st' : Progress × Option Result), Keeps raw hash D st1.1 st'.1 → ∀ n, (st1.1.files n).isSome → (st'.1.files n).isSome := by
      intro st' hk n hn
      obtain ⟨b, hb⟩ := Option.isSome_iff_exists.1 hn
      rw [hk.kept _ _ hb]; rfl
    -- the entry gives no result
    have skip : ∀ (hr : ∀ res, r ≠ .ok (some res)),
        ∃ st' rs, run os (benchLoop os pl f c lib raw hash env rate cfg ps acc) { w with st := st1 } =
          ({ w with st := st' }, some (acc ++ rs)) ∧ Keeps raw hash D w.st.1 st'.1 ∧
        (∀ x ∈ st'.1.restored, x ∈ w.st.1.restored ∨ ∃ q ∈ p :: ps, ∃ b, Found os w.files f q b ∧ RanOn c T (textureOf b) x) ∧
        (cfg.dryRun = true → rs = []) ∧
        (cfg.dryRun = false → Tally (fun p r => ∃ b, Found os w.files f p b ∧ IsReport rate (reckoned b) (benchNames c) r)
          (fun p => Unhindered env raw ∧ ∃ b, Found os w.files f p b ∧
            SearchSucceeds c lib hash cfg.estimateLevel cfg.estimateAlgorithm (textureOf b)) (p :: ps) rs) ∧
        (Unhindered env raw → (∀ q ∈ p :: ps, ∀ b, Found os w.files f q b →
          SearchSucceeds c lib hash cfg.estimateLevel cfg.estimateAlgorithm (textureOf b)) →
          st'.1.restored.length = w.st.1.restored.length + rs.length * ((c.scenarios.length + 1) * (cfg.iterations + cfg.warmup)) ∧
          ((∀ k, env.save k = .done) → ∀ q ∈ p :: ps, ∀ b, Found os w.files f q b → (∀ e ∈ c.scenarios,
            (st'.1.files (fileName ⟨hash (T (textureOf b) e.2), cfg.level, .zstandard⟩)).isSome) ∧
            (st'.1.files (fileName ⟨hash (textureOf b), cfg.level, .zstandard⟩)).isSome)) := by
      intro hr
      obtain ⟨st', rs, h2, h2k, h2x, h2d, h2m, h2u⟩ := tail acc
      refine ⟨st', rs, h2, h1k.trans h2k, mem st' h2x, h2d, fun hdry => .skip ?_ (h2m hdry), fun hu hss => ?_⟩
      · rintro ⟨hu, b, hb, hss⟩
        obtain ⟨_, hm, hok, _⟩ := h1f b hb
        obtain ⟨v, rfl⟩ := hok hu hss
        obtain ⟨⟨res, rfl, _⟩, _⟩ := hm v rfl hdry
        exact hr res rfl
      · obtain ⟨h3, h4⟩ := h2u hu fun q hq => hss q (by simp [hq])
        have heq : st1.1.restored = w.st.1.restored := by
          by_cases hfound : ∃ b, Found os w.files f p b
          · obtain ⟨b, hb⟩ := hfound
            obtain ⟨hd, hm, hok, _⟩ := h1f b hb
            obtain ⟨v, rfl⟩ := hok hu (hss p (by simp) b hb)
            by_cases hdry : cfg.dryRun = true
            · exact (hd v rfl hdry).2
            · obtain ⟨⟨res, rfl, _⟩, _⟩ := hm v rfl (by simpa using hdry)
              exact absurd rfl (hr res)
          · rw [(h1n hfound).2]
        refine ⟨by rw [h3, heq], fun hsv q hq b hb => ?_⟩
        rcases List.mem_cons.1 hq with rfl | hq
        · obtain ⟨_, _, hok, hsaved⟩ := h1f b hb
          obtain ⟨h5, h6⟩ := hsaved hsv (hok hu (hss q (by simp) b hb))
          exact ⟨fun e he => stays st' h2k _ (h5 e he), stays st' h2k _ h6⟩
        · exact h4 hsv q hq b hb
    rcases r with e | _ | res
    · exact skip nofun
    · exact skip nofun
    · obtain ⟨st', rs, h2, h2k, h2x, h2d, h2m, h2u⟩ := tail (acc ++ [res])
      have hfound : ∃ b, Found os w.files f p b := by
        by_contra h
        obtain ⟨⟨e, he⟩, _⟩ := h1n h
        exact nomatch he
      obtain ⟨b, hb⟩ := hfound
      obtain ⟨hd, hm, hok, hsaved⟩ := h1f b hb
      have hdry : cfg.dryRun = false := by
        by_contra h
        have h : cfg.dryRun = true := by simpa using h
        obtain ⟨h, _⟩ := hd _ rfl h
        exact nomatch h
      obtain ⟨⟨res', hres, hrep⟩, hrest⟩ := hm _ rfl hdry
      cases hres
      refine ⟨st', res :: rs, ?_, h1k.trans h2k, mem st' h2x, fun h => by rw [hdry] at h; exact (nomatch h),
        fun hdry => .one ⟨b, hb, hrep⟩ (h2m hdry), fun hu hss => ?_⟩
      · refine h2.trans ?_
        rw [List.append_assoc]
        rfl
      · obtain ⟨h3, h4⟩ := h2u hu fun q hq => hss q (by simp [hq])
        refine ⟨?_, fun hsv q hq b' hb' => ?_⟩
        · rw [h3]
          dsimp only
          rw [hrest, List.length_cons]
          generalize (c.scenarios.length + 1) * (cfg.iterations + cfg.warmup) = k
          rw [Nat.add_mul, Nat.one_mul]
          omega
        · rcases List.mem_cons.1 hq with rfl | hq
          · obtain rfl := hb.unique hb'
            obtain ⟨h5, h6⟩ := hsaved hsv ⟨_, rfl⟩
            exact ⟨fun e he => stays st' h2k _ (h5 e he), stays st' h2k _ h6⟩
          · exact h4 hsv q hq b' hb'

theorem benchmark_spec (hwide : Wide pl) (hov : pl.overflowChecks = false) (hh : env.heap.Wf) (hi : NoCollision hash D)
    (hinv : Inverse raw) (hwr : WholeWrites env) (lib : Lib) (opts : AlgorithmOptions) (ha : opts.algorithm = .zstandard)
    (iterations warmup : Nat) (hit : iterations ≠ 0) (entries : List Path) (w : World (Progress × Option Result))
    (hl : ∀ p ∈ entries, ∀ b, w.files p = some b → b.length < 2 ^ 32 ∧ b.length ≤ os.usizeMax)
    (hf : Restorable raw hash D w.st.1.files)
    (hwk : ∀ p ∈ entries, ∀ b, Found os w.files f p b → Works c D (textureOf b) (T (textureOf b))) :
    ∃ st' rs, run os (benchmark os pl f c lib raw hash env rate opts iterations warmup entries) w = ({ w with st := st' }, some (.ok rs)) ∧
      Keeps raw hash D w.st.1 st'.1 ∧
      (∀ x ∈ st'.1.restored, x ∈ w.st.1.restored ∨ ∃ p ∈ entries, ∃ b, Found os w.files f p b ∧ RanOn c T (textureOf b) x) ∧
      Tally (fun p r => ∃ b, Found os w.files f p b ∧ IsReport rate (reckoned b) (benchNames c) r)
        (fun p => Unhindered env raw ∧ ∃ b, Found os w.files f p b ∧
          SearchSucceeds c lib hash opts.getEstimateLevel opts.getEstimateAlgorithm (textureOf b)) entries rs ∧
      (Unhindered env raw → (∀ p ∈ entries, ∀ b, Found os w.files f p b →
        SearchSucceeds c lib hash opts.getEstimateLevel opts.getEstimateAlgorithm (textureOf b)) →
        st'.1.restored.length = w.st.1.restored.length + rs.length * ((c.scenarios.length + 1) * (iterations + warmup)) ∧
        ((∀ k, env.save k = .done) → ∀ p ∈ entries, ∀ b, Found os w.files f p b → (∀ e ∈ c.scenarios,
          (st'.1.files (fileName ⟨hash (T (textureOf b) e.2), opts.getLevel, .zstandard⟩)).isSome) ∧
          (st'.1.files (fileName ⟨hash (textureOf b), opts.getLevel, .zstandard⟩)).isSome)) := by
  unfold benchmark validate
  rw [ha]
  simp only [Algorithm.supportsCompress, if_true]
  rw [run_bind']
  obtain ⟨st1, rs1, h1, h1k, h1x, h1d, _, h1u⟩ := benchLoop_spec (c := c) (rate := rate) hwide hov hh hi hinv hwr lib
    (⟨0, 0, opts.getLevel, opts.getEstimateLevel, .zstandard, opts.getEstimateAlgorithm, true⟩) rfl (.inr rfl)
    entries [] w hl hf hwk
  obtain rfl := h1d rfl
  rw [h1]
  dsimp only
  rw [run_bind']
  obtain ⟨st2, rs, h2, h2k, h2x, _, h2m, h2u⟩ := benchLoop_spec (c := c) (rate := rate) hwide hov hh hi hinv hwr lib
    (⟨iterations, warmup, opts.getLevel, opts.getEstimateLevel, .zstandard, opts.getEstimateAlgorithm, false⟩) rfl (.inl hit)
    entries [] { w with st := st1 } hl (h1k.faithful hf) hwk
  rw [h2]
  refine ⟨st2, rs, rfl, h1k.trans h2k, fun x hx => ?_, h2m rfl, fun hu hss => ?_⟩
  · rcases h2x x hx with h | h
    · exact h1x x h
    · exact .inr h
  · obtain ⟨h3, h4⟩ := h2u hu hss
    obtain ⟨h5, _⟩ := h1u hu hss
    refine ⟨?_, h4⟩
    rw [h3, h5]
    simp

end

end Dlt.Props
