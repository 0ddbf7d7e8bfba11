import Verif.Model.DebugStats
import Verif.Lemmas.AutoSim
import Verif.Lemmas.Caches
import Verif.Props.Auto
import Verif.Props.DebugRoundtrip
/-!
# C68: compression statistics of the debug commands
-/

namespace Dlt.Props

open Dlt.Cache Dlt.DebugIo Dlt.DebugStats

/-! ## The best result of a list -/

theorem findBestLoop_spec {S : Type} : ∀ (rs : List (TransformResult S)) (b : TransformResult S) (n : Nat),
    (findBestLoop rs b n = b ∧ ∀ r ∈ rs, n ≤ r.size) ∨
    (∃ pre post, rs = pre ++ findBestLoop rs b n :: post ∧ (∀ r ∈ pre, (findBestLoop rs b n).size < r.size) ∧
      (∀ r ∈ post, (findBestLoop rs b n).size ≤ r.size) ∧ (findBestLoop rs b n).size < n)
  | [], b, n => .inl ⟨rfl, by simp⟩
  | r :: rs, b, n => by
    unfold findBestLoop
    by_cases h : r.size < n
    · rw [if_pos h]
      right
      rcases findBestLoop_spec rs r r.size with ⟨h1, h2⟩ | ⟨pre, post, h1, h2, h3, h4⟩
      · rw [h1]; exact ⟨[], rs, rfl, by simp, h2, h⟩
      · refine ⟨r :: pre, post, by rw [List.cons_append, ← h1], ?_, h3, by omega⟩
        intro x hx
        rcases List.mem_cons.1 hx with rfl | hx
        · exact h4
        · exact h2 x hx
    · rw [if_neg h]
      rcases findBestLoop_spec rs b n with ⟨h1, h2⟩ | ⟨pre, post, h1, h2, h3, h4⟩
      · left
        refine ⟨h1, fun x hx => ?_⟩
        rcases List.mem_cons.1 hx with rfl | hx
        · omega
        · exact h2 x hx
      · right
        refine ⟨r :: pre, post, by rw [List.cons_append, ← h1], ?_, h3, h4⟩
        intro x hx
        rcases List.mem_cons.1 hx with rfl | hx
        · omega
        · exact h2 x hx

/-- **C68** (best result): the first of the smallest results, if there is one below `usize::MAX`; otherwise the default settings with
size 0, which no measurement has given. -/
theorem C68_best {S : Type} (usizeMax : Nat) (dflt : S) (rs : List (TransformResult S)) :
    ((∃ r ∈ rs, r.size < usizeMax) → ∃ pre post, rs = pre ++ findBest usizeMax dflt rs :: post ∧
      (∀ r ∈ pre, (findBest usizeMax dflt rs).size < r.size) ∧ ∀ r ∈ post, (findBest usizeMax dflt rs).size ≤ r.size) ∧
    ((∀ r ∈ rs, usizeMax ≤ r.size) → findBest usizeMax dflt rs = ⟨dflt, 0⟩) := by
  constructor
  · rintro ⟨r, hr, hlt⟩
    rcases findBestLoop_spec rs ⟨dflt, 0⟩ usizeMax with ⟨_, h2⟩ | ⟨pre, post, h1, h2, h3, _⟩
    · have := h2 r hr; omega
    · exact ⟨pre, post, h1, h2, h3⟩
  · intro h
    rcases findBestLoop_spec rs ⟨dflt, 0⟩ usizeMax with ⟨h1, _⟩ | ⟨pre, post, h1, _, _, h4⟩
    · exact h1
    · have := h (findBestLoop rs ⟨dflt, 0⟩ usizeMax) (by rw [List.mem_iff_append]; exact ⟨pre, post, h1⟩)
      omega

example : findBest (2 ^ 64 - 1) 0 [⟨1, 30⟩, ⟨2, 20⟩, ⟨3, 20⟩] = ⟨2, 20⟩ ∧ findBest (2 ^ 64 - 1) 7 [] = ⟨7, 0⟩ := by decide

/-! ## The size of data -/

/-- The size that the algorithm gives for the bytes `x`, with enough memory; `none` if it fails. -/
def trueSize (lib : Lib) (a : Algorithm) (level : BitVec 32) (x : Buf) : Option Nat :=
  match a with
  | .zstandard =>
    if 1 ≤ level.toInt ∧ level.toInt ≤ 22 then
      if x = [] then some 0 else (lib.compress level x (lib.bound x.length)).toOption
    else none
  | .losslessTransformUtils => some (if x = [] then 0 else x.length - lib.lz x)

/-- The memory that the algorithm asks for. -/
def neededMemory (lib : Lib) (a : Algorithm) (len : Nat) : Nat :=
  match a with
  | .zstandard => if len = 0 then 0 else lib.bound len
  | .losslessTransformUtils => 0

/-- zstd keeps to its documentation: a destination of the size of the bound or more makes no difference, and the bound grows with the
length. -/
structure Ample (lib : Lib) : Prop where
  compress : ∀ level x n, lib.bound x.length ≤ n → lib.compress level x n = lib.compress level x (lib.bound x.length)
  bound : ∀ i j, i ≤ j → lib.bound i ≤ lib.bound j

theorem created {σ : Type} (lib : Lib) (hl : Ample lib) (a : Algorithm) (level : BitVec 32) (e : Estimator σ CliError)
    (h : createSizeEstimator lib a level = .ok e) :
    (∀ st len, e.maxSize st len = (st, .ok (neededMemory lib a len))) ∧
    (∀ st x k, neededMemory lib a x.length ≤ k → ∃ r, e.estimate st x k = (st, r) ∧ r.toOption = trueSize lib a level x) := by
  cases a with
  | zstandard =>
    unfold createSizeEstimator zstdNew at h
    by_cases hv : 1 ≤ level.toInt ∧ level.toInt ≤ 22
    · rw [if_pos hv] at h
      cases h
      refine ⟨fun st len => rfl, fun st x k hk => ⟨_, rfl, ?_⟩⟩
      simp only [trueSize, if_pos hv, zstd]
      by_cases hx : x = []
      · subst hx; rfl
      · have hx' : x.length ≠ 0 := by simpa using hx
        simp only [neededMemory, if_neg hx'] at hk
        rw [if_neg hx, if_neg hx', hl.compress level x k hk]
        cases lib.compress level x (lib.bound x.length) <;> rfl
    · rw [if_neg hv] at h; exact nomatch h
  | losslessTransformUtils =>
    cases h
    refine ⟨fun st len => rfl, fun st x k hk => ⟨_, rfl, ?_⟩⟩
    simp only [trueSize, CApi.ltu, List.length_eq_zero_iff]
    rfl

theorem not_created {σ : Type} (lib : Lib) (a : Algorithm) (level : BitVec 32) (err : CliError)
    (h : createSizeEstimator (σ := σ) lib a level = .error err) : ∀ x, trueSize lib a level x = none := by
  intro x
  cases a with
  | zstandard =>
    unfold createSizeEstimator zstdNew at h
    by_cases hv : 1 ≤ level.toInt ∧ level.toInt ≤ 22
    · rw [if_pos hv] at h; exact nomatch h
    · simp only [trueSize, if_neg hv]
  | losslessTransformUtils => exact nomatch h

/-- **C68** (estimators): the levels of zstd are exactly 1 to 22 and the presets are among them; the estimators do not fail before they
are asked for a size. -/
theorem C68_levels (level : BitVec 32) :
    (zstdNew level = some level ↔ 1 ≤ level.toInt ∧ level.toInt ≤ 22) ∧ (zstdNew level ≠ some level → zstdNew level = none) ∧
    zstdNew zstdFast = some zstdFast ∧ zstdNew zstdDefault = some zstdDefault ∧ zstdNew zstdBest = some zstdBest ∧
    zstdFast.toInt = 1 ∧ zstdDefault.toInt = 3 ∧ zstdBest.toInt = 22 := by
  refine ⟨?_, ?_, by decide, by decide, by decide, by decide, by decide, by decide⟩ <;> unfold zstdNew <;> split <;> simp_all

/-- **C68** (size): a size that `calc_size_with_estimation_algorithm` returns is the size the algorithm gives, and it returns
one if the algorithm does and there is memory. -/
theorem C68_size (env : Env) (lib : Lib) (hl : Ample lib) (x : Buf) (level : BitVec 32) (a : Algorithm) :
    (∀ n, calcSize env lib x level a = .ok n → trueSize lib a level x = some n) ∧
    (∀ n, trueSize lib a level x = some n → ScratchOk env (neededMemory lib a x.length) →
      calcSize env lib x level a = .ok n) ∧
    (trueSize lib a level x ≠ none → ¬ ScratchOk env (neededMemory lib a x.length) →
      calcSize env lib x level a = .error .allocate) := by
  unfold calcSize
  rcases hc : createSizeEstimator (σ := Unit) lib a level with err | e
  · have := not_created lib a level err hc x
    rw [this]
    exact ⟨fun n h => (nomatch h), fun n h => (nomatch h), fun h => absurd rfl h⟩
  obtain ⟨h1, h2⟩ := created lib hl a level e hc
  obtain ⟨r, h3, h4⟩ := h2 () x _ (Nat.le_refl _)
  simp only [bind, Except.bind, h1, ScratchOk]
  by_cases h0 : neededMemory lib a x.length = 0
  · rw [h0] at h3
    rw [if_pos h0, h3, ← h4]
    refine ⟨?_, ?_, fun _ h => absurd (.inl h0) h⟩
    · rintro n rfl; rfl
    · intro n h _
      cases r with
      | error e => exact nomatch h
      | ok k => cases h; rfl
  · rw [if_neg h0, h3, ← h4]
    split
    · rename_i ha
      refine ⟨?_, ?_, fun _ h => absurd (.inr ha) h⟩
      · rintro n rfl; rfl
      · intro n h _
        cases r with
        | error e => exact nomatch h
        | ok k => cases h; rfl
    · rename_i ha
      exact ⟨fun n h => (nomatch h), fun n _ h => absurd h (by simp [h0, ha]), fun _ _ => rfl⟩

/-! ## The cache -/

/-- The cache holds only true sizes for the data in `D`. -/
def Truthful (lib : Lib) (hash : Buf → BitVec 128) (D : Buf → Prop) (cache : Sizes) : Prop :=
  ∀ x, D x → ∀ level a n, cache.get ⟨hash x, level, a⟩ = some n → trueSize lib a level x = some n

/-- No two different buffers in `D` have the same hash. -/
def NoCollision (hash : Buf → BitVec 128) (D : Buf → Prop) : Prop := ∀ x y, D x → D y → hash x = hash y → x = y

theorem Truthful.insert {lib : Lib} {hash : Buf → BitVec 128} {D : Buf → Prop} {cache : Sizes}
    (h : Truthful lib hash D cache) (hi : NoCollision hash D) {x : Buf} (hx : D x) {level : BitVec 32} {a : Algorithm} {n : Nat}
    (hn : trueSize lib a level x = some n) : Truthful lib hash D (cache.insert ⟨hash x, level, a⟩ n) := by
  intro y hy level' a' n' hg
  rw [Sizes.get_insert] at hg
  by_cases hk : (⟨hash y, level', a'⟩ : Key) = ⟨hash x, level, a⟩
  · rw [if_pos hk] at hg
    cases hg
    injection hk with h1 h2 h3
    subst h2 h3
    rw [hi y x hy hx h1]
    exact hn
  · rw [if_neg hk] at hg
    exact h y hy level' a' n' hg

/-- `Inv` is an invariant of a cache that makes the answers for the data in `D` true. -/
structure FaithfulCache {σ : Type} [SharedCache σ] (lib : Lib) (hash : Buf → BitVec 128) (D : Buf → Prop) (Inv : σ → Prop) : Prop where
  get : ∀ cache x level a, Inv cache → D x → Inv (SharedCache.get cache ⟨hash x, level, a⟩).1 ∧
    ∀ n, (SharedCache.get cache ⟨hash x, level, a⟩).2 = some n → trueSize lib a level x = some n
  insert : ∀ cache x level a n, Inv cache → D x → trueSize lib a level x = some n →
    Inv (SharedCache.insert cache ⟨hash x, level, a⟩ n)

theorem truthful_faithful {lib : Lib} {hash : Buf → BitVec 128} {D : Buf → Prop} (hi : NoCollision hash D) :
    FaithfulCache lib hash D (Truthful lib hash D) :=
  ⟨fun _ x level a h hx => ⟨h, fun n hn => h x hx level a n hn⟩, fun _ _ _ _ _ h hx hn => h.insert hi hx hn⟩

theorem cached_size {σ : Type} [SharedCache σ] (env : Env) {lib : Lib} (hl : Ample lib) {hash : Buf → BitVec 128} {D : Buf → Prop}
    {Inv : σ → Prop} (hf : FaithfulCache lib hash D Inv) (level : BitVec 32) (a : Algorithm) (cache : σ) (hc : Inv cache) (x : Buf) (hx : D x) :
    Inv (calcSizeCached env lib hash level a cache x).1 ∧
    (∀ n, (calcSizeCached env lib hash level a cache x).2 = .ok n → trueSize lib a level x = some n) ∧
    (∀ n, trueSize lib a level x = some n → ScratchOk env (neededMemory lib a x.length) →
      (calcSizeCached env lib hash level a cache x).2 = .ok n) := by
  unfold calcSizeCached
  obtain ⟨hg1, hg2⟩ := hf.get cache x level a hc hx
  rcases hg : SharedCache.get cache ⟨hash x, level, a⟩ with ⟨cache1, _ | n⟩
  · rw [hg] at hg1
    obtain ⟨h1, h2, _⟩ := C68_size env lib hl x level a
    rcases hs : calcSize env lib x level a with e | n
    · refine ⟨hg1, fun n h => (nomatch h), fun n h1 h3 => ?_⟩
      rw [h2 n h1 h3] at hs
      exact nomatch hs
    · have := h1 n hs
      refine ⟨hf.insert _ _ _ _ _ hg1 hx this, fun n' h => by cases h; exact this, fun n' h1 _ => ?_⟩
      rw [this] at h1
      cases h1; rfl
  · rw [hg] at hg1 hg2
    have := hg2 n rfl
    refine ⟨hg1, fun n' h => by cases h; exact this, fun n' h _ => ?_⟩
    rw [this] at h
    cases h; rfl

/-- **C68** (cached size): with a truthful cache the cached calculation returns true sizes only and keeps the cache truthful. -/
theorem C68_cached_size (env : Env) (lib : Lib) (hl : Ample lib) (hash : Buf → BitVec 128) (D : Buf → Prop)
    (hi : NoCollision hash D) (level : BitVec 32) (a : Algorithm) (cache : Sizes) (hc : Truthful lib hash D cache) (x : Buf) (hx : D x) :
    Truthful lib hash D (calcSizeCached env lib hash level a cache x).1 ∧
    (∀ n, (calcSizeCached env lib hash level a cache x).2 = .ok n → trueSize lib a level x = some n) ∧
    (∀ n, trueSize lib a level x = some n → ScratchOk env (neededMemory lib a x.length) →
      (calcSizeCached env lib hash level a cache x).2 = .ok n) :=
  cached_size env hl (truthful_faithful hi) level a cache hc x hx

/-- The cached estimator answers what the estimator behind it answers. -/
theorem cached_alike {σ : Type} [SharedCache σ] {lib : Lib} (hl : Ample lib) {hash : Buf → BitVec 128} {D : Buf → Prop} {Inv : σ → Prop}
    (hf : FaithfulCache lib hash D Inv)
    {level : BitVec 32} {a : Algorithm} {inner : Estimator Unit CliError} (hc : createSizeEstimator lib a level = .ok inner)
    {cache : σ} (ht : Inv cache) {x : Buf} (hx : D x) {k : Nat} (hk : neededMemory lib a x.length ≤ k) :
    ((cachedEstimator hash level a inner).estimate cache x k).2 = (inner.estimate () x k).2 ∧
    Inv ((cachedEstimator hash level a inner).estimate cache x k).1 := by
  obtain ⟨r, h1, h2⟩ := (created lib hl a level inner hc).2 () x k hk
  simp only [cachedEstimator, h1]
  obtain ⟨hg1, hg2⟩ := hf.get cache x level a ht hx
  rcases hg : SharedCache.get cache ⟨hash x, level, a⟩ with ⟨cache1, _ | n⟩
  · rw [hg] at hg1
    cases r with
    | error e => exact ⟨rfl, hg1⟩
    | ok n => exact ⟨rfl, hf.insert _ _ _ _ _ hg1 hx h2.symm⟩
  · rw [hg] at hg1 hg2
    have := hg2 n rfl
    rw [this] at h2
    cases r with
    | error e => exact nomatch h2
    | ok n' => cases h2; exact ⟨rfl, hg1⟩

/-! ## The analysis of a texture -/

/-- What the analysis of a format builds on: on new buffers the transform gives `T s`, and the search with the cached estimator finds
what the search `plain` with the estimator alone finds; `room` says that the search gets all the memory it asks for. -/
structure Sound {S : Type} (c : Codec S) (lib : Lib) (hash : Buf → BitVec 128) (D : Buf → Prop) (data : Buf) (T : S → Buf)
    (plain : Estimator Unit CliError → Buf → Option (Buf × Unit × Except (DetermineBestError CliError) S))
    (room : Prop) : Prop where
  transform : ∀ out s, out.length = data.length → c.transform data out data.length s = some (T s)
  length : ∀ s, (T s).length = data.length
  given : D data
  shown : ∀ s, D (T s)
  auto : ∀ {σ : Type} [SharedCache σ] (Inv : σ → Prop), FaithfulCache lib hash D Inv →
    ∀ a level inner out cache, createSizeEstimator lib a level = .ok inner → out.length = data.length →
    Inv cache → ∃ o cache' r, c.auto (cachedEstimator hash level a inner) data out data.length cache = some (o, cache', r) ∧
      plain inner out = some (o, (), r) ∧ Inv cache' ∧
      (room → (∀ x, D x → trueSize lib a level x ≠ none) → ∃ s, r = .ok s)

theorem FaithfulCache.mono {σ : Type} [SharedCache σ] {lib : Lib} {hash : Buf → BitVec 128} {D D' : Buf → Prop} {Inv : σ → Prop}
    (h : FaithfulCache lib hash D' Inv) (hd : ∀ x, D x → D' x) : FaithfulCache lib hash D Inv :=
  ⟨fun c x l a hc hx => h.get c x l a hc (hd x hx), fun c x l a n hc hx => h.insert c x l a n hc (hd x hx)⟩

/-- The same with more data. -/
theorem Sound.mono {S : Type} {c : Codec S} {lib : Lib} {hash : Buf → BitVec 128} {D D' : Buf → Prop} {data : Buf} {T : S → Buf}
    {plain : Estimator Unit CliError → Buf → Option (Buf × Unit × Except (DetermineBestError CliError) S)} {room : Prop}
    (h : Sound c lib hash D data T plain room) (hd : ∀ x, D x → D' x) : Sound c lib hash D' data T plain room :=
  ⟨h.transform, h.length, hd _ h.given, fun s => hd _ (h.shown s), fun Inv hf a level inner out cache hcr ho hc =>
    let ⟨o, c', r, h1, h2, h3, h4⟩ := h.auto Inv (hf.mono hd) a level inner out cache hcr ho hc
    ⟨o, c', r, h1, h2, h3, fun hr ht => h4 hr fun x hx => ht x (hd x hx)⟩⟩

theorem analyzeTransforms_spec {S σ : Type} [SharedCache σ] {c : Codec S} {env : Env} {lib : Lib} (hl : Ample lib) {hash : Buf → BitVec 128}
    {D : Buf → Prop} {Inv : σ → Prop} (hf : FaithfulCache lib hash D Inv) {data : Buf} {T : S → Buf}
    {plain : Estimator Unit CliError → Buf → Option (Buf × Unit × Except (DetermineBestError CliError) S)}
    {room : Prop} (hs : Sound c lib hash D data T plain room) (level : BitVec 32) (a : Algorithm) :
    ∀ (ss : List S) (buf : Buf) (cache : σ), buf.length = data.length → Inv cache →
      ∃ cache' r, analyzeTransforms c (calcSizeCached env lib hash level a) data ss buf cache = some (cache', r) ∧
        Inv cache' ∧
        (∀ rs, r = .ok rs → rs.map TransformResult.options = ss ∧
          ∀ x ∈ rs, trueSize lib a level (T x.options) = some x.size) ∧
        ((∀ n, env.canAlloc n = true) → (∀ x, D x → trueSize lib a level x ≠ none) → ∃ rs, r = .ok rs)
  | [], buf, cache, _, hc => ⟨cache, .ok [], rfl, hc, by rintro rs h; cases h; simp, fun _ _ => ⟨_, rfl⟩⟩
  | s :: ss, buf, cache, hb, hc => by
    unfold analyzeTransforms
    rw [hs.transform buf s hb]
    simp only [bind, Option.bind]
    obtain ⟨h1, h2, h3⟩ := cached_size env hl hf level a cache hc (T s) (hs.shown s)
    rcases hr : calcSizeCached env lib hash level a cache (T s) with ⟨cache1, e | n⟩
    · rw [hr] at h1 h3
      refine ⟨cache1, .error e, rfl, h1, fun rs h => (nomatch h), fun hm ht => ?_⟩
      rcases hn : trueSize lib a level (T s) with _ | n
      · exact absurd hn (ht _ (hs.shown s))
      · exact nomatch h3 n hn (.inr (hm _))
    · rw [hr] at h1 h2
      obtain ⟨cache2, r, h4, h5, h6, h7⟩ := analyzeTransforms_spec hl hf hs level a ss (T s) cache1 (hs.length s) h1
      dsimp only
      rw [h4]
      dsimp only
      rcases r with e | rs
      · exact ⟨cache2, .error e, rfl, h5, fun rs h => (nomatch h), fun hm ht => by
          obtain ⟨rs, h⟩ := h7 hm ht; exact nomatch h⟩
      · refine ⟨cache2, .ok (⟨s, n⟩ :: rs), rfl, h5, ?_, fun _ _ => ⟨_, rfl⟩⟩
        rintro rs' h
        cases h
        obtain ⟨h8, h9⟩ := h6 rs rfl
        refine ⟨by rw [List.map_cons, h8], fun x hx => ?_⟩
        rcases List.mem_cons.1 hx with rfl | hx
        · exact h2 n rfl
        · exact h9 x hx

theorem analyzeTexture_spec {S σ : Type} [SharedCache σ] {c : Codec S} {env : Env} {lib : Lib} (hl : Ample lib) {hash : Buf → BitVec 128}
    {D : Buf → Prop} {Inv : σ → Prop} (hf : FaithfulCache lib hash D Inv) {data : Buf} {T : S → Buf}
    {plain : Estimator Unit CliError → Buf → Option (Buf × Unit × Except (DetermineBestError CliError) S)}
    {room : Prop} (hs : Sound c lib hash D data T plain room) (heap : Heap) (hw : heap.Wf) (level : BitVec 32) (a : Algorithm)
    (estLevel : BitVec 32) (estAlg : Algorithm) (cache : σ) (hc : Inv cache) :
    ∃ cache' r, analyzeTexture c env heap lib hash level a estLevel estAlg data cache = some (cache', r) ∧
      Inv cache' ∧
      (∀ res, r = .ok res → res.originalUncompressed = data.length ∧
        trueSize lib a level data = some res.originalCompressed ∧
        res.allResults.map TransformResult.options = c.all ∧
        (∀ x ∈ res.api :: res.allResults, trueSize lib a level (T x.options) = some x.size) ∧
        ∃ inner buf o, createSizeEstimator lib estAlg estLevel = .ok inner ∧ heap 1 data.length = some buf ∧
          plain inner buf = some (o, (), .ok res.api.options)) ∧
      (room ∧ (∀ n, env.canAlloc n = true) → (∀ k, (heap k data.length).isSome) → (∀ x, D x → trueSize lib a level x ≠ none) →
        (∀ x, D x → trueSize lib estAlg estLevel x ≠ none) → ∃ res, r = .ok res) := by
  unfold analyzeTexture
  dsimp only
  rcases h0 : heap 0 data.length with _ | buf0
  · exact ⟨cache, .error .allocate, rfl, hc, fun _ h => (nomatch h), fun _ hh => by have := hh 0; rw [h0] at this; exact nomatch this⟩
  obtain ⟨cache1, r1, h1, hc1, h1a, h1b⟩ := analyzeTransforms_spec (env := env) hl hf hs level a c.all buf0 cache (hw _ _ _ h0) hc
  dsimp only
  simp only [h1, bind, Option.bind]
  rcases r1 with e | results
  · exact ⟨cache1, .error e, rfl, hc1, fun _ h => (nomatch h), fun hm _ ht _ => by
      obtain ⟨_, h⟩ := h1b hm.2 ht; exact nomatch h⟩
  obtain ⟨hall, hres⟩ := h1a results rfl
  obtain ⟨hc2, h2a, h2b⟩ := cached_size env hl hf level a cache1 hc1 data hs.given
  dsimp only
  rcases hr2 : calcSizeCached env lib hash level a cache1 data with ⟨cache2, e | original⟩
  · rw [hr2] at hc2 h2b
    refine ⟨cache2, .error e, rfl, hc2, fun _ h => (nomatch h), fun hm _ ht _ => ?_⟩
    rcases hn : trueSize lib a level data with _ | n
    · exact absurd hn (ht _ hs.given)
    · exact nomatch h2b n hn (.inr (hm.2 _))
  rw [hr2] at hc2 h2a
  have horig := h2a original rfl
  unfold determineBest
  dsimp only
  rcases hcr : createSizeEstimator (σ := Unit) lib estAlg estLevel with e | inner
  · exact ⟨cache2, .error e, rfl, hc2, fun _ h => (nomatch h), fun _ _ _ ht =>
      absurd (not_created lib estAlg estLevel e hcr data) (ht data hs.given)⟩
  dsimp only
  rcases hh1 : heap 1 data.length with _ | buf1
  · exact ⟨cache2, _, rfl, hc2, fun _ h => (nomatch h), fun _ hh => by have := hh 1; rw [hh1] at this; exact nomatch this⟩
  obtain ⟨o, cache3, r3, h3, hpl, hc3, h3b⟩ := hs.auto Inv hf estAlg estLevel inner buf1 cache2 hcr (hw _ _ _ hh1) hc2
  simp only [h3, pure, bind, Option.bind]
  rcases r3 with e | best
  · exact ⟨cache3, _, rfl, hc3, fun _ h => (nomatch h), fun hm _ _ ht => by
      obtain ⟨_, h⟩ := h3b hm.1 ht; exact nomatch h⟩
  dsimp only [Except.mapError]
  rcases hh2 : heap 2 data.length with _ | buf2
  · exact ⟨cache3, _, rfl, hc3, fun _ h => (nomatch h), fun _ hh => by have := hh 2; rw [hh2] at this; exact nomatch this⟩
  dsimp only
  rw [hs.transform buf2 best (hw _ _ _ hh2)]
  dsimp only
  obtain ⟨hc4, h4a, h4b⟩ := cached_size env hl hf level a cache3 hc3 (T best) (hs.shown best)
  rcases hr4 : calcSizeCached env lib hash level a cache3 (T best) with ⟨cache4, e | n⟩
  · rw [hr4] at hc4 h4b
    refine ⟨cache4, .error e, rfl, hc4, fun _ h => (nomatch h), fun hm _ ht _ => ?_⟩
    rcases hn : trueSize lib a level (T best) with _ | n
    · exact absurd hn (ht _ (hs.shown best))
    · exact nomatch h4b n hn (.inr (hm.2 _))
  rw [hr4] at hc4 h4a
  refine ⟨cache4, _, rfl, hc4, ?_, fun _ _ _ _ => ⟨_, rfl⟩⟩
  rintro res h
  cases h
  refine ⟨rfl, horig, hall, ?_, inner, buf1, o, rfl, rfl, hpl⟩
  intro x hx
  rcases List.mem_cons.1 hx with rfl | hx
  · exact h4a n rfl
  · exact hres x hx

/-- What the result `res` says about the texture `data`: `transform` is the transform of the format, `auto` its search for the best
settings without the cache. -/
structure Reports {S : Type} (lib : Lib) (transform : Buf → Buf → Nat → S → Option Buf) (all : List S)
    (auto : Estimator Unit CliError → Buf → Option (Buf × Unit × Except (DetermineBestError CliError) S))
    (level : BitVec 32) (a : Algorithm) (estLevel : BitVec 32) (estAlg : Algorithm) (data : Buf) (res : StatsResult S) : Prop where
  /-- the size of the texture -/
  uncompressed : res.originalUncompressed = data.length
  /-- the size of the compressed texture -/
  compressed : trueSize lib a level data = some res.originalCompressed
  /-- one result for each of the settings, in order -/
  options : res.allResults.map TransformResult.options = all
  /-- each with the size of the compressed transformed texture; also the recommendation -/
  sizes : ∀ x ∈ res.api :: res.allResults, ∃ t, transform data (List.replicate data.length 0) data.length x.options = some t ∧
    trueSize lib a level t = some x.size
  /-- the recommendation is that of the search -/
  api : ∃ inner buf o, createSizeEstimator lib estAlg estLevel = .ok inner ∧ buf.length = data.length ∧
    auto inner buf = some (o, (), .ok res.api.options)

theorem reports_of_sound {S σ : Type} [SharedCache σ] {c : Codec S} {env : Env} {lib : Lib} (hl : Ample lib) {hash : Buf → BitVec 128}
    {D : Buf → Prop} {Inv : σ → Prop} (hf : FaithfulCache lib hash D Inv) {data : Buf} {T : S → Buf}
    {plain : Estimator Unit CliError → Buf → Option (Buf × Unit × Except (DetermineBestError CliError) S)}
    {room : Prop} (hs : Sound c lib hash D data T plain room) (heap : Heap) (hw : heap.Wf) (level : BitVec 32) (a : Algorithm)
    (estLevel : BitVec 32) (estAlg : Algorithm) (cache : σ) (hc : Inv cache) :
    ∃ cache' r, analyzeTexture c env heap lib hash level a estLevel estAlg data cache = some (cache', r) ∧
      Inv cache' ∧
      (∀ res, r = .ok res → Reports lib c.transform c.all plain level a estLevel estAlg data res) ∧
      (room ∧ (∀ n, env.canAlloc n = true) → (∀ k, (heap k data.length).isSome) → (∀ x, D x → trueSize lib a level x ≠ none) →
        (∀ x, D x → trueSize lib estAlg estLevel x ≠ none) → ∃ res, r = .ok res) := by
  obtain ⟨cache', r, h1, h2, h3, h4⟩ := analyzeTexture_spec hl hf hs heap hw level a estLevel estAlg cache hc
  refine ⟨cache', r, h1, h2, fun res h => ?_, h4⟩
  obtain ⟨h5, h6, h7, h8, inner, buf, o, h9, h10, h11⟩ := h3 res h
  exact ⟨h5, h6, h7, fun x hx => ⟨_, hs.transform _ _ (by simp), h8 x hx⟩, inner, buf, o, h9, hw _ _ _ h10, h11⟩

theorem neededMemory_mono {lib : Lib} (hl : Ample lib) (a : Algorithm) {i j : Nat} (h : i ≤ j) :
    neededMemory lib a i ≤ neededMemory lib a j := by
  cases a with
  | zstandard =>
    unfold neededMemory
    dsimp only
    split
    · exact Nat.zero_le _
    · rw [if_neg (by omega)]; exact hl.bound i j h
  | losslessTransformUtils => exact Nat.le_refl _

theorem ask_ok {σ E : Type} (est : Estimator σ E) (k : Nat) : ∀ (xs : List Buf) (st : σ),
    (∀ x ∈ xs, ∀ st, ∃ n, (est.estimate st x k).2 = .ok n) → ∃ st', ask est k st xs = (st', .ok ())
  | [], st, _ => ⟨st, rfl⟩
  | x :: xs, st, h => by
    obtain ⟨n, hn⟩ := h x (by simp) st
    unfold ask
    rcases hr : est.estimate st x k with ⟨st1, r⟩
    rw [hr] at hn
    dsimp only at hn
    subst hn
    exact ask_ok est k xs st1 fun y hy => h y (by simp [hy])

/-! ## BC1 -/

/-- The data whose sizes are asked for: the texture, its transforms and what the search shows to the estimator. -/
def Asked1 (m : Machine) (data x : Buf) : Prop :=
  x = data ∨ ∃ s, Bc1.transformWithSettings m data (List.replicate data.length 0) data.length s = some x ∨
    x ∈ shown1 m data (List.replicate data.length 0) s

theorem sound1 (env : Env) (m : Machine) (useAll : Bool) (lib : Lib) (hl : Ample lib) (hash : Buf → BitVec 128) (data : Buf)
    (hB : data.length % 8 = 0) (D : Buf → Prop) (hsub : ∀ x, Asked1 m data x → D x) :
    Sound (DebugStats.bc1 env m useAll) lib hash D data (fun s => Bc1.encode m.endian s data)
      (fun inner out => Bc1.transformAuto env m inner useAll data out data.length ()) (∀ n, env.canAlloc n = true) := by
  have hT : ∀ out s, out.length = data.length →
      Bc1.transformWithSettings m data out data.length s = some (Bc1.encode m.endian s data) := by
    intro out s ho
    rw [(runs1 m hB (by omega)).eq out s ⟨rfl, rfl⟩, List.drop_eq_nil_of_le (by omega), List.append_nil]
  have hlenT : ∀ s, (Bc1.encode m.endian s data).length = data.length := fun s =>
    (Bc1.transform_impl m s data data hB (Nat.le_refl _)).1
  have hz : data.length ≤ (List.replicate data.length (0 : Byte)).length := by simp
  have hsh : ∀ out s, out.length = data.length → shown1 m data out s = shown1 m data (List.replicate data.length 0) s := by
    intro out s ho
    unfold shown1
    rw [hT out s ho, hT _ s (by simp)]
  have hD : ∀ out s x, out.length = data.length → x ∈ shown1 m data out s → D x := by
    intro out s x ho hx
    rw [hsh out s ho] at hx
    exact hsub x (.inr ⟨s, .inr hx⟩)
  have hlen : ∀ out s x, data.length ≤ out.length → x ∈ shown1 m data out s → x.length ≤ data.length / 2 := by
    intro out s x ho hx
    rw [shown1_eq m hB ho] at hx
    simp only [List.mem_cons, List.not_mem_nil, or_false] at hx
    subst hx
    simp only [slice, List.length_take]
    omega
  refine ⟨hT, hlenT, hsub _ (.inl rfl), fun s => hsub _ (.inr ⟨s, .inl (hT _ s (by simp))⟩), ?_⟩
  intro σ _ Inv hf a level inner out cache hcr ho hc
  have hmaxeq := (created lib hl a level inner hcr).1
  have hsh' := fun s => shown1_eq m (out := out) hB (by omega) s
  have alike : ∀ k, (∃ st, (inner.maxSize st (data.length / 2)).2 = .ok k) →
      Auto.Alike (fun (cache : σ) (_ : Unit) => Inv cache)
        (fun s => Bc1.encode m.endian s data ++ out.drop data.length)
        (Bc1.measure env (cachedEstimator hash level a inner) data.length k) (Bc1.measure env inner data.length k) := by
    rintro k ⟨st, hk⟩ cache ⟨⟩ s hr
    rw [hmaxeq] at hk
    have hk : k = neededMemory lib a (data.length / 2) := by
      simpa [eq_comm] using hk
    have key : ∀ cache, Inv cache → ∀ x ∈ shown1 m data out s,
        ((cachedEstimator hash level a inner).estimate cache x k).2 = (inner.estimate () x k).2 ∧
        Inv ((cachedEstimator hash level a inner).estimate cache x k).1 := fun cache hr x hx =>
      cached_alike hl hf hcr hr (hD out s x ho hx) (by rw [hk]; exact neededMemory_mono hl _ (hlen out s x (by omega) hx))
    rw [hsh' s] at key
    unfold Bc1.measure
    exact key cache hr _ (by simp)
  obtain ⟨o, cache', st', r, h1, h2, _, h4⟩ := Auto.prepare_alike (runs1 m hB (by omega : data.length ≤ out.length)) env
    (e₁ := cachedEstimator hash level a inner) (e₂ := inner) (data.length / 2)
    (R := fun (cache : σ) (_ : Unit) => Inv cache) (fun c st h => ⟨rfl, h⟩)
    (m₁ := Bc1.measure env (cachedEstimator hash level a inner) data.length) (m₂ := Bc1.measure env inner data.length)
    alike (Bc1.testOrder useAll) Bc1.defaultSettings out cache () ⟨rfl, rfl⟩ hc
  refine ⟨o, cache', r, h1, h2, h4, fun hm ht => ?_⟩
  have hask : ∀ x ∈ (Bc1.testOrder useAll).flatMap (shown1 m data out), ∀ st, ∃ n,
      (inner.estimate st x (neededMemory lib a (data.length / 2))).2 = .ok n := by
    intro x hx st
    obtain ⟨s, _, hx⟩ := List.mem_flatMap.1 hx
    obtain ⟨r, h5, h6⟩ := (created lib hl a level inner hcr).2 st x _ (neededMemory_mono hl a (hlen out s x (by omega) hx))
    rw [h5]
    have := ht x (hD out s x ho hx)
    cases r with
    | error e => exact absurd h6.symm this
    | ok n => exact ⟨n, rfl⟩
  obtain ⟨st2, h5⟩ := ask_ok inner _ _ () hask
  obtain ⟨o', s, h6⟩ := (C22_bc1_estimator_failures env m inner useAll data out () hB (by omega)).2.2.1 () _ st2
    (hmaxeq () _) (.inr (hm _)) h5
  have h2' : Bc1.transformAuto env m inner useAll data out data.length () = some (o, st', r) := h2
  rw [h6] at h2'
  cases h2'
  exact ⟨s, rfl⟩

/-- **C68** (BC1): with a truthful cache and no hash collision among the data in question the analysis of a texture does not panic, keeps
the cache truthful, and reports true sizes and the recommendation of the search without a cache.  With memory enough and
sizes that can be computed it succeeds. -/
theorem C68_bc1 (env : Env) (m : Machine) (useAll : Bool) (heap : Heap) (hw : heap.Wf) (lib : Lib) (hl : Ample lib)
    (hash : Buf → BitVec 128) (level : BitVec 32) (a : Algorithm) (estLevel : BitVec 32) (estAlg : Algorithm) (data : Buf)
    (hB : data.length % 8 = 0) (hi : NoCollision hash (Asked1 m data)) (cache : Sizes)
    (hc : Truthful lib hash (Asked1 m data) cache) :
    ∃ cache' r, analyzeTexture (DebugStats.bc1 env m useAll) env heap lib hash level a estLevel estAlg data cache =
        some (cache', r) ∧
      Truthful lib hash (Asked1 m data) cache' ∧
      (∀ res, r = .ok res → Reports lib (Bc1.transformWithSettings m) allColour
        (fun inner out => Bc1.transformAuto env m inner useAll data out data.length ()) level a estLevel estAlg data res) ∧
      ((∀ n, env.canAlloc n = true) → (∀ k, (heap k data.length).isSome) →
        (∀ x, Asked1 m data x → trueSize lib a level x ≠ none) →
        (∀ x, Asked1 m data x → trueSize lib estAlg estLevel x ≠ none) → ∃ res, r = .ok res) :=
  let ⟨c, r, h1, h2, h3, h4⟩ := reports_of_sound hl (truthful_faithful hi) (sound1 env m useAll lib hl hash data hB _ (fun _ h => h)) heap hw level a estLevel estAlg cache hc
  ⟨c, r, h1, h2, h3, fun hm => h4 ⟨hm, hm⟩⟩

/-! ## BC2 -/

/-- The data whose sizes are asked for: the texture, its transforms and what the search shows to the estimator. -/
def Asked2 (m : Machine) (data x : Buf) : Prop :=
  x = data ∨ ∃ s, Bc2.transformWithSettings m data (List.replicate data.length 0) data.length s = some x ∨
    x ∈ shown2 m data (List.replicate data.length 0) s

theorem sound2 (env : Env) (m : Machine) (useAll : Bool) (lib : Lib) (hl : Ample lib) (hash : Buf → BitVec 128) (data : Buf)
    (hB : data.length % 16 = 0) :
    Sound (DebugStats.bc2 env m useAll) lib hash (Asked2 m data) data (fun s => Bc2.encode m.endian s data)
      (fun inner out => Bc2.transformAuto env m inner useAll data out data.length ()) (∀ n, env.canAlloc n = true) := by
  have hT : ∀ out s, out.length = data.length →
      Bc2.transformWithSettings m data out data.length s = some (Bc2.encode m.endian s data) := by
    intro out s ho
    rw [(runs2 m hB (by omega)).eq out s ⟨rfl, rfl⟩, List.drop_eq_nil_of_le (by omega), List.append_nil]
  have hlenT : ∀ s, (Bc2.encode m.endian s data).length = data.length := fun s =>
    (Bc2.transform_impl m s data data hB (Nat.le_refl _)).1
  have hz : data.length ≤ (List.replicate data.length (0 : Byte)).length := by simp
  have hsh : ∀ out s, out.length = data.length → shown2 m data out s = shown2 m data (List.replicate data.length 0) s := by
    intro out s ho
    unfold shown2
    rw [hT out s ho, hT _ s (by simp)]
  have hD : ∀ out s x, out.length = data.length → x ∈ shown2 m data out s → Asked2 m data x := by
    intro out s x ho hx
    rw [hsh out s ho] at hx
    exact .inr ⟨s, .inr hx⟩
  have hlen : ∀ out s x, data.length ≤ out.length → x ∈ shown2 m data out s → x.length ≤ data.length / 4 := by
    intro out s x ho hx
    rw [shown2_eq m hB ho] at hx
    simp only [List.mem_cons, List.not_mem_nil, or_false] at hx
    subst hx
    simp only [slice, List.length_take]
    omega
  refine ⟨hT, hlenT, .inl rfl, fun s => .inr ⟨s, .inl (hT _ s (by simp))⟩, ?_⟩
  intro σ _ Inv hf a level inner out cache hcr ho hc
  have hmaxeq := (created lib hl a level inner hcr).1
  have hsh' := fun s => shown2_eq m (out := out) hB (by omega) s
  have alike : ∀ k, (∃ st, (inner.maxSize st (data.length / 4)).2 = .ok k) →
      Auto.Alike (fun (cache : σ) (_ : Unit) => Inv cache)
        (fun s => Bc2.encode m.endian s data ++ out.drop data.length)
        (Bc2.measure env (cachedEstimator hash level a inner) data.length k) (Bc2.measure env inner data.length k) := by
    rintro k ⟨st, hk⟩ cache ⟨⟩ s hr
    rw [hmaxeq] at hk
    have hk : k = neededMemory lib a (data.length / 4) := by
      simpa [eq_comm] using hk
    have key : ∀ cache, Inv cache → ∀ x ∈ shown2 m data out s,
        ((cachedEstimator hash level a inner).estimate cache x k).2 = (inner.estimate () x k).2 ∧
        Inv ((cachedEstimator hash level a inner).estimate cache x k).1 := fun cache hr x hx =>
      cached_alike hl hf hcr hr (hD out s x ho hx) (by rw [hk]; exact neededMemory_mono hl _ (hlen out s x (by omega) hx))
    rw [hsh' s] at key
    unfold Bc2.measure
    exact key cache hr _ (by simp)
  obtain ⟨o, cache', st', r, h1, h2, _, h4⟩ := Auto.prepare_alike (runs2 m hB (by omega : data.length ≤ out.length)) env
    (e₁ := cachedEstimator hash level a inner) (e₂ := inner) (data.length / 4)
    (R := fun (cache : σ) (_ : Unit) => Inv cache) (fun c st h => ⟨rfl, h⟩)
    (m₁ := Bc2.measure env (cachedEstimator hash level a inner) data.length) (m₂ := Bc2.measure env inner data.length)
    alike (Bc2.testOrder useAll) Bc2.defaultSettings out cache () ⟨rfl, rfl⟩ hc
  refine ⟨o, cache', r, h1, h2, h4, fun hm ht => ?_⟩
  have hask : ∀ x ∈ (Bc2.testOrder useAll).flatMap (shown2 m data out), ∀ st, ∃ n,
      (inner.estimate st x (neededMemory lib a (data.length / 4))).2 = .ok n := by
    intro x hx st
    obtain ⟨s, _, hx⟩ := List.mem_flatMap.1 hx
    obtain ⟨r, h5, h6⟩ := (created lib hl a level inner hcr).2 st x _ (neededMemory_mono hl a (hlen out s x (by omega) hx))
    rw [h5]
    have := ht x (hD out s x ho hx)
    cases r with
    | error e => exact absurd h6.symm this
    | ok n => exact ⟨n, rfl⟩
  obtain ⟨st2, h5⟩ := ask_ok inner _ _ () hask
  obtain ⟨o', s, h6⟩ := (C22_bc2_estimator_failures env m inner useAll data out () hB (by omega)).2.2.1 () _ st2
    (hmaxeq () _) (.inr (hm _)) h5
  have h2' : Bc2.transformAuto env m inner useAll data out data.length () = some (o, st', r) := h2
  rw [h6] at h2'
  cases h2'
  exact ⟨s, rfl⟩

/-- **C68** (BC2): with a truthful cache and no hash collision among the data in question the analysis of a texture does not panic, keeps
the cache truthful, and reports true sizes and the recommendation of the search without a cache.  With memory enough and
sizes that can be computed it succeeds. -/
theorem C68_bc2 (env : Env) (m : Machine) (useAll : Bool) (heap : Heap) (hw : heap.Wf) (lib : Lib) (hl : Ample lib)
    (hash : Buf → BitVec 128) (level : BitVec 32) (a : Algorithm) (estLevel : BitVec 32) (estAlg : Algorithm) (data : Buf)
    (hB : data.length % 16 = 0) (hi : NoCollision hash (Asked2 m data)) (cache : Sizes)
    (hc : Truthful lib hash (Asked2 m data) cache) :
    ∃ cache' r, analyzeTexture (DebugStats.bc2 env m useAll) env heap lib hash level a estLevel estAlg data cache =
        some (cache', r) ∧
      Truthful lib hash (Asked2 m data) cache' ∧
      (∀ res, r = .ok res → Reports lib (Bc2.transformWithSettings m) allColour
        (fun inner out => Bc2.transformAuto env m inner useAll data out data.length ()) level a estLevel estAlg data res) ∧
      ((∀ n, env.canAlloc n = true) → (∀ k, (heap k data.length).isSome) →
        (∀ x, Asked2 m data x → trueSize lib a level x ≠ none) →
        (∀ x, Asked2 m data x → trueSize lib estAlg estLevel x ≠ none) → ∃ res, r = .ok res) :=
  let ⟨c, r, h1, h2, h3, h4⟩ := reports_of_sound hl (truthful_faithful hi) (sound2 env m useAll lib hl hash data hB) heap hw level a estLevel estAlg cache hc
  ⟨c, r, h1, h2, h3, fun hm => h4 ⟨hm, hm⟩⟩

/-! ## BC3 -/

/-- The data whose sizes are asked for: the texture, its transforms and what the search shows to the estimator. -/
def Asked3 (m : Machine) (data x : Buf) : Prop :=
  x = data ∨ ∃ s, Bc3.transformWithSettings m data (List.replicate data.length 0) data.length s = some x ∨
    x ∈ shown3 m data (List.replicate data.length 0) s

theorem sound3 (env : Env) (m : Machine) (useAll : Bool) (lib : Lib) (hl : Ample lib) (hash : Buf → BitVec 128) (data : Buf)
    (hB : data.length % 16 = 0) :
    Sound (DebugStats.bc3 env m useAll) lib hash (Asked3 m data) data (fun s => Bc3.encode m.endian s data)
      (fun inner out => Bc3.transformAuto env m inner useAll data out data.length ()) (∀ n, env.canAlloc n = true) := by
  have hT : ∀ out s, out.length = data.length →
      Bc3.transformWithSettings m data out data.length s = some (Bc3.encode m.endian s data) := by
    intro out s ho
    rw [(runs3 m hB (by omega)).eq out s ⟨rfl, rfl⟩, List.drop_eq_nil_of_le (by omega), List.append_nil]
  have hlenT : ∀ s, (Bc3.encode m.endian s data).length = data.length := fun s =>
    (Bc3.transform_impl m s data data hB (Nat.le_refl _)).1
  have hz : data.length ≤ (List.replicate data.length (0 : Byte)).length := by simp
  have hsh : ∀ out s, out.length = data.length → shown3 m data out s = shown3 m data (List.replicate data.length 0) s := by
    intro out s ho
    unfold shown3
    rw [hT out s ho, hT _ s (by simp)]
  have hD : ∀ out s x, out.length = data.length → x ∈ shown3 m data out s → Asked3 m data x := by
    intro out s x ho hx
    rw [hsh out s ho] at hx
    exact .inr ⟨s, .inr hx⟩
  have hlen : ∀ out s x, data.length ≤ out.length → x ∈ shown3 m data out s → x.length ≤ data.length / 4 := by
    intro out s x ho hx
    rw [shown3_eq m hB ho] at hx
    simp only [List.mem_cons, List.not_mem_nil, or_false] at hx
    rcases hx with rfl | rfl <;> simp only [slice, List.length_take] <;> omega
  refine ⟨hT, hlenT, .inl rfl, fun s => .inr ⟨s, .inl (hT _ s (by simp))⟩, ?_⟩
  intro σ _ Inv hf a level inner out cache hcr ho hc
  have hmaxeq := (created lib hl a level inner hcr).1
  have hsh' := fun s => shown3_eq m (out := out) hB (by omega) s
  have alike : ∀ k, (∃ st, (inner.maxSize st (data.length / 4)).2 = .ok k) →
      Auto.Alike (fun (cache : σ) (_ : Unit) => Inv cache)
        (fun s => Bc3.encode m.endian s data ++ out.drop data.length)
        (Bc3.measure env (cachedEstimator hash level a inner) data.length k) (Bc3.measure env inner data.length k) := by
    rintro k ⟨st, hk⟩ cache ⟨⟩ s hr
    rw [hmaxeq] at hk
    have hk : k = neededMemory lib a (data.length / 4) := by
      simpa [eq_comm] using hk
    have key : ∀ cache, Inv cache → ∀ x ∈ shown3 m data out s,
        ((cachedEstimator hash level a inner).estimate cache x k).2 = (inner.estimate () x k).2 ∧
        Inv ((cachedEstimator hash level a inner).estimate cache x k).1 := fun cache hr x hx =>
      cached_alike hl hf hcr hr (hD out s x ho hx) (by rw [hk]; exact neededMemory_mono hl _ (hlen out s x (by omega) hx))
    rw [hsh' s] at key
    obtain ⟨h1, h2⟩ := key cache hr _ (List.mem_cons_self ..)
    unfold Bc3.measure
    rcases hq : (cachedEstimator hash level a inner).estimate cache (slice (Bc3.encode m.endian s data ++ out.drop data.length) 0
      (data.length / 16 * 2)) k with ⟨c1, r1⟩
    rcases hq' : inner.estimate () (slice (Bc3.encode m.endian s data ++ out.drop data.length) 0
      (data.length / 16 * 2)) k with ⟨u1, r1'⟩
    rw [hq, hq'] at h1
    rw [hq] at h2
    dsimp only at h1 h2
    subst h1
    cases r1 with
    | error e => exact ⟨rfl, h2⟩
    | ok n1 =>
      obtain ⟨h3, h4⟩ := key c1 h2 _ (List.mem_cons_of_mem _ (List.mem_cons_self ..))
      dsimp only
      rcases hq2 : (cachedEstimator hash level a inner).estimate c1 (slice (Bc3.encode m.endian s data ++ out.drop data.length)
        (data.length / 2) (data.length / 16 * 4)) k with ⟨c2, r2⟩
      rcases hq2' : inner.estimate u1 (slice (Bc3.encode m.endian s data ++ out.drop data.length)
        (data.length / 2) (data.length / 16 * 4)) k with ⟨u2, r2'⟩
      rw [hq2, hq2'] at h3
      rw [hq2] at h4
      dsimp only at h3 h4
      subst h3
      cases r2 with
      | error e => exact ⟨rfl, h4⟩
      | ok n2 => exact ⟨rfl, h4⟩
  obtain ⟨o, cache', st', r, h1, h2, _, h4⟩ := Auto.prepare_alike (runs3 m hB (by omega : data.length ≤ out.length)) env
    (e₁ := cachedEstimator hash level a inner) (e₂ := inner) (data.length / 4)
    (R := fun (cache : σ) (_ : Unit) => Inv cache) (fun c st h => ⟨rfl, h⟩)
    (m₁ := Bc3.measure env (cachedEstimator hash level a inner) data.length) (m₂ := Bc3.measure env inner data.length)
    alike (Bc3.testOrder useAll) Bc3.defaultSettings out cache () ⟨rfl, rfl⟩ hc
  refine ⟨o, cache', r, h1, h2, h4, fun hm ht => ?_⟩
  have hask : ∀ x ∈ (Bc3.testOrder useAll).flatMap (shown3 m data out), ∀ st, ∃ n,
      (inner.estimate st x (neededMemory lib a (data.length / 4))).2 = .ok n := by
    intro x hx st
    obtain ⟨s, _, hx⟩ := List.mem_flatMap.1 hx
    obtain ⟨r, h5, h6⟩ := (created lib hl a level inner hcr).2 st x _ (neededMemory_mono hl a (hlen out s x (by omega) hx))
    rw [h5]
    have := ht x (hD out s x ho hx)
    cases r with
    | error e => exact absurd h6.symm this
    | ok n => exact ⟨n, rfl⟩
  obtain ⟨st2, h5⟩ := ask_ok inner _ _ () hask
  obtain ⟨o', s, h6⟩ := (C22_bc3_estimator_failures env m inner useAll data out () hB (by omega)).2.2.1 () _ st2
    (hmaxeq () _) (.inr (hm _)) h5
  have h2' : Bc3.transformAuto env m inner useAll data out data.length () = some (o, st', r) := h2
  rw [h6] at h2'
  cases h2'
  exact ⟨s, rfl⟩

/-- **C68** (BC3): with a truthful cache and no hash collision among the data in question the analysis of a texture does not panic, keeps
the cache truthful, and reports true sizes and the recommendation of the search without a cache.  With memory enough and
sizes that can be computed it succeeds. -/
theorem C68_bc3 (env : Env) (m : Machine) (useAll : Bool) (heap : Heap) (hw : heap.Wf) (lib : Lib) (hl : Ample lib)
    (hash : Buf → BitVec 128) (level : BitVec 32) (a : Algorithm) (estLevel : BitVec 32) (estAlg : Algorithm) (data : Buf)
    (hB : data.length % 16 = 0) (hi : NoCollision hash (Asked3 m data)) (cache : Sizes)
    (hc : Truthful lib hash (Asked3 m data) cache) :
    ∃ cache' r, analyzeTexture (DebugStats.bc3 env m useAll) env heap lib hash level a estLevel estAlg data cache =
        some (cache', r) ∧
      Truthful lib hash (Asked3 m data) cache' ∧
      (∀ res, r = .ok res → Reports lib (Bc3.transformWithSettings m) allBc3
        (fun inner out => Bc3.transformAuto env m inner useAll data out data.length ()) level a estLevel estAlg data res) ∧
      ((∀ n, env.canAlloc n = true) → (∀ k, (heap k data.length).isSome) →
        (∀ x, Asked3 m data x → trueSize lib a level x ≠ none) →
        (∀ x, Asked3 m data x → trueSize lib estAlg estLevel x ≠ none) → ∃ res, r = .ok res) :=
  let ⟨c, r, h1, h2, h3, h4⟩ := reports_of_sound hl (truthful_faithful hi) (sound3 env m useAll lib hl hash data hB) heap hw level a estLevel estAlg cache hc
  ⟨c, r, h1, h2, h3, fun hm => h4 ⟨hm, hm⟩⟩

/-! ## Comparing the results -/

/-- **C68** (ranking): in the result of an analysis the size of the best settings is at most that of the default settings, which are
always found, and at most that of the recommendation. -/
theorem C68_ranking {S : Type} [DecidableEq S] (usizeMax : Nat) (dflt : S) (lib : Lib)
    (transform : Buf → Buf → Nat → S → Option Buf) (all : List S) (hall : ∀ s, s ∈ all)
    (auto : Estimator Unit CliError → Buf → Option (Buf × Unit × Except (DetermineBestError CliError) S))
    (level : BitVec 32) (a : Algorithm) (estLevel : BitVec 32) (estAlg : Algorithm) (data : Buf) (res : StatsResult S)
    (h : Reports lib transform all auto level a estLevel estAlg data res) (hu : ∀ x ∈ res.allResults, x.size < usizeMax) :
    (findBest usizeMax dflt res.allResults).size ≤ res.api.size ∧
    ∃ d, findDefault dflt res.allResults = some d ∧ d.options = dflt ∧
      (findBest usizeMax dflt res.allResults).size ≤ d.size := by
  have hex : ∀ s, ∃ x ∈ res.allResults, x.options = s := by
    intro s
    have := hall s
    rw [← h.options, List.mem_map] at this
    exact this
  have hmin : ∀ x ∈ res.allResults, (findBest usizeMax dflt res.allResults).size ≤ x.size := by
    obtain ⟨y, hy, _⟩ := hex dflt
    obtain ⟨pre, post, hp, h1, h2⟩ := (C68_best usizeMax dflt res.allResults).1 ⟨y, hy, hu y hy⟩
    intro x hx
    rw [hp] at hx
    rcases List.mem_append.1 hx with hx | hx
    · exact Nat.le_of_lt (h1 x hx)
    · rcases List.mem_cons.1 hx with hx | hx
      · rw [hx]
      · exact h2 x hx
  constructor
  · obtain ⟨x, hx, ho⟩ := hex res.api.options
    obtain ⟨t, ht, hs⟩ := h.sizes x (by simp [hx])
    obtain ⟨t', ht', hs'⟩ := h.sizes res.api (by simp)
    rw [ho, ht'] at ht
    cases ht
    rw [hs', Option.some.injEq] at hs
    rw [hs]
    exact hmin x hx
  · unfold findDefault
    rcases hf : res.allResults.find? (fun r => decide (r.options = dflt)) with _ | d
    · obtain ⟨x, hx, ho⟩ := hex dflt
      have := List.find?_eq_none.1 hf x hx
      simp [ho] at this
    · exact ⟨d, hf, by simpa using List.find?_some hf, hmin d (List.mem_of_find?_eq_some hf)⟩

/-! ## A case that meets the hypotheses -/

/-- A library whose compressor counts the bytes that differ from the byte before. -/
def exampleLib : Lib where
  bound n := n + 64
  compress _ x _ := .ok (1 + ((x.zip (x.drop 1)).filter fun p => p.1 ≠ p.2).length)
  lz x := x.length / 2

def exampleTexture : Buf := [0x21, 0x21, 0x65, 0x65, 1, 1, 1, 1, 0x21, 0x21, 0x65, 0x65, 1, 1, 1, 1]

def exampleMachine : Machine := .other .little fun _ => 0

/-- A number for a short list of bytes. -/
def exampleHash (x : Buf) : BitVec 128 := BitVec.ofNat 128 (x.foldl (fun n b => n * 256 + b.toNat) 1)

def exampleAsked : List Buf := exampleTexture :: allColour.flatMap fun s =>
  ((Bc1.transformWithSettings exampleMachine exampleTexture (List.replicate 16 0) 16 s).getD []) ::
    shown1 exampleMachine exampleTexture (List.replicate 16 0) s

theorem exampleAsked_complete (x : Buf) (h : Asked1 exampleMachine exampleTexture x) : x ∈ exampleAsked := by
  rcases h with rfl | ⟨s, h | h⟩
  · exact List.mem_cons_self ..
  · refine List.mem_cons_of_mem _ (List.mem_flatMap.2 ⟨s, C66_all_combinations.1 s, ?_⟩)
    have h' : Bc1.transformWithSettings exampleMachine exampleTexture (List.replicate 16 0) 16 s = some x := h
    rw [h', Option.getD_some]
    exact List.mem_cons_self ..
  · exact List.mem_cons_of_mem _ (List.mem_flatMap.2 ⟨s, C66_all_combinations.1 s, List.mem_cons_of_mem _ h⟩)

/-- The hypotheses of `C68_bc1` can be met: this library keeps to its documentation, no two of the buffers have the same hash, and
the empty cache is truthful. -/
example : Ample exampleLib ∧ exampleTexture.length % 8 = 0 ∧ NoCollision exampleHash (Asked1 exampleMachine exampleTexture) ∧
    Truthful exampleLib exampleHash (Asked1 exampleMachine exampleTexture) [] := by
  refine ⟨⟨fun _ _ _ _ => rfl, fun i j h => Nat.add_le_add_right h 64⟩, rfl, ?_, fun x _ l a n h => nomatch h⟩
  have : ∀ x ∈ exampleAsked, ∀ y ∈ exampleAsked, exampleHash x = exampleHash y → x = y := by decide +kernel
  exact fun x y hx hy => this x (exampleAsked_complete x hx) y (exampleAsked_complete y hy)

/-- The analysis of this texture: its compressed size, the sizes for the settings, the recommendation and its size. -/
def exampleAnalysis : Option (List Nat × ColourSettings) :=
  (analyzeTexture (DebugStats.bc1 ⟨fun _ => true, 2 ^ 64 - 1⟩ exampleMachine true) ⟨fun _ => true, 2 ^ 64 - 1⟩
    (fun _ n => some (List.replicate n 0)) exampleLib exampleHash 3 .zstandard 3 .zstandard exampleTexture ([] : Sizes)).bind fun r =>
      r.2.toOption.map fun res =>
        (res.originalUncompressed :: res.originalCompressed :: res.api.size :: res.allResults.map (·.size), res.api.options)

example : exampleAnalysis = some ([16, 6, 3, 3, 5, 9, 9, 9, 9, 9, 9], ⟨.none, true⟩) := by decide +kernel

end Dlt.Props
