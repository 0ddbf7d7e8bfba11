import Verif.Model.Zstd
import Verif.Props.DebugBench
/-!
# C107: the wrappers around zstd
-/

namespace Dlt.Props

open Dlt.Cache Dlt.DebugIo Dlt.DebugStats Dlt.DebugBench Dlt.Zstd

/-! ## What `zstd.h` promises -/

/-- The documentation of zstd: a new context is not one of the live ones; the functions write only into the destination and return the number of bytes; what was
compressed is decompressed to the same bytes, provided the format is the same. -/
structure Documented (z : Library) : Prop where
  fresh : ∀ s a, z.address s = some a → ∀ c, (a, c) ∉ s.live
  within : ∀ p x n, (z.compress p x n).2.length = n
  written : ∀ p x n, z.isError (z.compress p x n).1 = false → (z.compress p x n).1 ≤ n
  withinD : ∀ f x n, (z.decompress f x n).2.length = n
  inverse : ∀ p x n, z.isError (z.compress p x n).1 = false →
    z.decompress p.magicless ((z.compress p x n).2.take (z.compress p x n).1) x.length = (x.length, x) ∧ z.isError x.length = false

/-- The parameters that the wrappers ask for: a frame with nothing but the data. -/
def bare (level : BitVec 32) : Params := ⟨level, true, false, false, false⟩

/-- What a caller of a wrapper may expect: no undefined behaviour, and all other contexts as they were.  If there is no context,
the error for it and an untouched destination; otherwise exactly one context was created and is gone, and `answer` is
the answer of the library, split into results and errors. -/
def Wrapped (z : Library) (answer : Nat → Nat × Buf) (destination : Buf) (s : Contexts) (r : Option (Except Nat Nat × Buf × Contexts)) : Prop :=
  match z.address s with
  | none => r = some (.error 1, destination, s)
  | some _ => r = some (if z.isError (answer destination.length).1 then .error (z.errorCode (answer destination.length).1)
      else .ok (answer destination.length).1, (answer destination.length).2, ⟨s.live, s.created + 1⟩)

section
variable {z : Library} {s : Contexts} {a : Nat}

theorem at_new {c : Context} {l : List (Nat × Context)} {k : Nat} : Contexts.at ⟨(a, c) :: l, k⟩ a = some c := by
  simp [Contexts.at]

theorem put_new {c d : Context} {l : List (Nat × Context)} {k : Nat} (h : ∀ c, (a, c) ∉ l) :
    Contexts.put ⟨(a, c) :: l, k⟩ a d = ⟨(a, d) :: l, k⟩ := by
  have : l.map (fun x => if x.1 = a then (a, d) else x) = l := by
    conv => rhs; rw [← List.map_id l]
    refine List.map_congr_left fun x hx => if_neg fun hxa => ?_
    exact h x.2 (by subst hxa; exact hx)
  simp [Contexts.put, this]

theorem filter_new {c : Context} {l : List (Nat × Context)} (h : ∀ c, (a, c) ∉ l) :
    ((a, c) :: l).filter (fun x => x.1 ≠ a) = l := by
  have : l.filter (fun x => x.1 ≠ a) = l := by
    refine List.filter_eq_self.mpr fun x hx => ?_
    have : x.1 ≠ a := fun hxa => h x.2 (by subst hxa; exact hx)
    simpa using this
  rw [List.filter_cons_of_neg (by simp)]
  exact this

theorem setC_new {p : Params} {q : CParam} {v : BitVec 32} {l : List (Nat × Context)} {k : Nat} (h : ∀ c, (a, c) ∉ l) :
    setC a q v ⟨(a, .compression p) :: l, k⟩ = some ⟨(a, .compression (p.set q v)) :: l, k⟩ := by
  unfold setC
  rw [at_new]
  dsimp only
  rw [put_new h]

theorem freeC_new {p : Params} {l : List (Nat × Context)} {k : Nat} (h : ∀ c, (a, c) ∉ l) :
    freeC a ⟨(a, .compression p) :: l, k⟩ = some ⟨l, k⟩ := by
  unfold freeC
  rw [at_new]
  dsimp only
  rw [filter_new h]

theorem freeD_new {f : Bool} {l : List (Nat × Context)} {k : Nat} (h : ∀ c, (a, c) ∉ l) :
    freeD a ⟨(a, .decompression f) :: l, k⟩ = some ⟨l, k⟩ := by
  unfold freeD
  rw [at_new]
  dsimp only
  rw [filter_new h]

theorem estimatorParams_new {level : BitVec 32} {l : List (Nat × Context)} {k : Nat} (h : ∀ c, (a, c) ∉ l) :
    estimatorParams a (some level) ⟨(a, .compression {}) :: l, k⟩ = some ⟨(a, .compression (bare level)) :: l, k⟩ := by
  unfold estimatorParams
  simp only [setC_new h, Option.bind_eq_bind, Option.bind_some]
  rfl

theorem rawParams_new {level : BitVec 32} {l : List (Nat × Context)} {k : Nat} (h : ∀ c, (a, c) ∉ l) :
    rawParams a (some level) ⟨(a, .compression {}) :: l, k⟩ = some ⟨(a, .compression (bare level)) :: l, k⟩ := by
  unfold rawParams
  simp only [setC_new h, Option.bind_eq_bind, Option.bind_some]
  rfl

theorem estimatorCompress_wrapped (h : Documented z) (level : BitVec 32) (x destination : Buf) (s : Contexts) :
    Wrapped z (z.compress (bare level) x) destination s (estimatorCompress z level x destination s) := by
  unfold Wrapped estimatorCompress create
  rcases ha : z.address s with _ | a
  · rfl
  · have hf := h.fresh s a ha
    dsimp only
    rw [estimatorParams_new hf]
    simp only [compress2, at_new, freeC_new hf, Option.bind_eq_bind, Option.bind_some, Option.pure_def]
    cases z.isError (z.compress (bare level) x destination.length).1 <;> rfl

theorem rawCompress_wrapped (h : Documented z) (level : BitVec 32) (x destination : Buf) (s : Contexts) :
    Wrapped z (z.compress (bare level) x) destination s (rawCompress z level x destination s) := by
  unfold Wrapped rawCompress create
  rcases ha : z.address s with _ | a
  · rfl
  · have hf := h.fresh s a ha
    dsimp only
    rw [rawParams_new hf]
    simp only [compress2, at_new, freeC_new hf, Option.bind_eq_bind, Option.bind_some, Option.pure_def]
    cases z.isError (z.compress (bare level) x destination.length).1 <;> rfl

theorem rawDecompress_wrapped (h : Documented z) (x destination : Buf) (s : Contexts) :
    Wrapped z (z.decompress true x) destination s (rawDecompress z x destination s) := by
  unfold Wrapped rawDecompress create
  rcases ha : z.address s with _ | a
  · rfl
  · have hf := h.fresh s a ha
    dsimp only
    simp only [rawDecompressionParams, setD, at_new, put_new hf, decompressDCtx, freeD_new hf, Option.bind_eq_bind, Option.bind_some,
      Option.pure_def]
    change (if z.isError (z.decompress true x destination.length).1 = true then _ else _) = _
    cases z.isError (z.decompress true x destination.length).1 <;> rfl

end

/-- **C107**, the contexts: whatever zstd answers, both functions that compress and the one that decompresses are free of undefined
behaviour, release the one context they create and leave all others alone.  They pass the result and the error code of
zstd on.  Both compress with the same parameters, and decompress in the same format. -/
theorem C107_contexts {z : Library} (h : Documented z) (level : BitVec 32) (x destination : Buf) (s : Contexts) :
    Wrapped z (z.compress (bare level) x) destination s (estimatorCompress z level x destination s) ∧
    Wrapped z (z.compress (bare level) x) destination s (rawCompress z level x destination s) ∧
    Wrapped z (z.decompress true x) destination s (rawDecompress z x destination s) :=
  ⟨estimatorCompress_wrapped h level x destination s, rawCompress_wrapped h level x destination s, rawDecompress_wrapped h x destination s⟩

/-- A result of a wrapper came from zstd. -/
theorem wrapped_ok {z : Library} {answer : Nat → Nat × Buf} {destination out : Buf} {s s' : Contexts} {n : Nat}
    {r : Option (Except Nat Nat × Buf × Contexts)} (h : Wrapped z answer destination s r) (hr : r = some (.ok n, out, s')) :
    answer destination.length = (n, out) ∧ z.isError n = false ∧ s'.live = s.live := by
  unfold Wrapped at h
  rcases ha : z.address s with _ | a
  · rw [ha, hr] at h
    cases h
  · rw [ha] at h
    dsimp only at h
    rw [hr] at h
    rcases he : z.isError (answer destination.length).1
    · rw [he] at h
      simp only [Bool.false_eq_true, if_false, Option.some.injEq, Prod.mk.injEq, Except.ok.injEq] at h
      obtain ⟨h1, h2, h3⟩ := h
      subst h1 h2 h3
      exact ⟨rfl, he, rfl⟩
    · rw [he] at h
      simp at h

/-- **C107**, there and back: what `compress_data` returned, whatever the level and the memory it was given, `decompress_data`
turns into the same bytes, with a buffer of the right size and as soon as zstd has a context for it. -/
theorem C107_roundtrip {z : Library} (h : Documented z) {memory : Nat → Buf} {x packed : Buf} {level : BitVec 32} {n : Nat} {s s' : Contexts}
    (hc : compressData z memory x level s = some (.ok (packed, n), s')) :
    s'.live = s.live ∧
    ∀ (output : Buf) (t : Contexts), output.length = x.length → (z.address t).isSome →
      ∃ t', Zstd.decompressData z (packed.take n) output t = some (.ok x.length, x, t') ∧ t'.live = t.live := by
  unfold compressData at hc
  have hw := rawCompress_wrapped h level x (memory (maxAlloc z x.length)) s
  rcases hr : rawCompress z level x (memory (maxAlloc z x.length)) s with _ | ⟨r, buffer, s1⟩
  · rw [hr] at hc; cases hc
  · rw [hr] at hc
    rcases r with e | k
    · simp at hc
    · simp only [Option.bind_eq_bind, Option.bind_some, Option.pure_def, Option.some.injEq, Prod.mk.injEq, Except.ok.injEq] at hc
      obtain ⟨⟨rfl, rfl⟩, rfl⟩ := hc
      obtain ⟨h1, h2, h3⟩ := wrapped_ok hw hr
      refine ⟨h3, fun output t ho ht => ?_⟩
      have hi := h.inverse (bare level) x (memory (maxAlloc z x.length)).length
      rw [h1] at hi
      obtain ⟨hi, he⟩ := hi h2
      have hd := rawDecompress_wrapped h (buffer.take k) output t
      unfold Wrapped at hd
      obtain ⟨a, ha⟩ := Option.isSome_iff_exists.mp ht
      rw [ha] at hd
      dsimp only at hd
      rw [ho, show z.decompress true (buffer.take k) x.length = (x.length, x) from hi] at hd
      simp only [he, Bool.false_eq_true, if_false] at hd
      refine ⟨⟨t.live, t.created + 1⟩, ?_, rfl⟩
      unfold Zstd.decompressData
      rw [hd]
      rfl

/-- **C107**, nothing is made up: with a context, `compress_data` and `decompress_data` return the buffer as zstd has left it and the
size that zstd returned, or an error if zstd returned one, whatever the size of the buffer. -/
theorem C107_passed_on {z : Library} (h : Documented z) (memory : Nat → Buf) (x output : Buf) (level : BitVec 32) (s : Contexts)
    (ha : (z.address s).isSome) :
    (∃ s', compressData z memory x level s = some (
      let r := z.compress (bare level) x (memory (z.bound x.length)).length
      if z.isError r.1 = true then .error (.debug "ZStandard compression failed") else .ok (r.2, r.1), s') ∧ s'.live = s.live) ∧
    (∃ s', Zstd.decompressData z x output s = some (
      let r := z.decompress true x output.length
      (if z.isError r.1 = true then .error (.debug "ZStandard decompression failed") else .ok r.1, r.2, s')) ∧ s'.live = s.live) := by
  obtain ⟨a, ha⟩ := Option.isSome_iff_exists.mp ha
  refine ⟨⟨⟨s.live, s.created + 1⟩, ?_, rfl⟩, ⟨⟨s.live, s.created + 1⟩, ?_, rfl⟩⟩
  · have hw := rawCompress_wrapped h level x (memory (maxAlloc z x.length)) s
    unfold Wrapped at hw
    rw [ha] at hw
    dsimp only at hw
    unfold compressData
    rw [hw]
    dsimp only [maxAlloc]
    by_cases he : z.isError (z.compress (bare level) x (memory (z.bound x.length)).length).1 = true <;> simp [he]
  · have hw := rawDecompress_wrapped h x output s
    unfold Wrapped at hw
    rw [ha] at hw
    dsimp only at hw
    unfold Zstd.decompressData
    rw [hw]
    dsimp only
    by_cases he : z.isError (z.decompress true x output.length).1 = true <;> simp [he]

/-- **C107**, for the benchmark: zstd as the debug commands use it is what C73 and C106 ask for. -/
theorem C107_inverse {z : Library} (h : Documented z) (ha : (z.address idle).isSome) : Inverse (raw z) := by
  intro level x out hc
  unfold raw at hc ⊢
  dsimp only at hc ⊢
  have hw := rawCompress_wrapped h level x (List.replicate (maxAlloc z x.length) 0) idle
  rcases hr : rawCompress z level x (List.replicate (maxAlloc z x.length) 0) idle with _ | ⟨r, buffer, s1⟩
  · rw [hr] at hc; cases hc
  · rw [hr] at hc
    rcases r with e | k
    · cases hc
    · obtain ⟨h1, h2, -⟩ := wrapped_ok hw hr
      simp only [Option.some.injEq] at hc
      subst hc
      have hi := h.inverse (bare level) x (List.replicate (maxAlloc z x.length) (0 : Byte)).length
      rw [h1] at hi
      obtain ⟨hi, he⟩ := hi h2
      have hd := rawDecompress_wrapped h (buffer.take k) (List.replicate x.length 0) idle
      unfold Wrapped at hd
      obtain ⟨a, ha⟩ := Option.isSome_iff_exists.mp ha
      rw [ha] at hd
      dsimp only at hd
      rw [List.length_replicate, show z.decompress true (buffer.take k) x.length = (x.length, x) from hi] at hd
      simp only [he, Bool.false_eq_true, if_false] at hd
      rw [hd]
      simp

/-- **C107**, estimates are exact: for data and a level that the estimator accepts, the size it gives is the number of bytes which the
compression of the debug commands really makes, and it fails exactly if that fails. -/
theorem C107_exact {z : Library} (h : Documented z) (ha : (z.address idle).isSome) (lz : Buf → Nat) {env : Env} {x : Buf} {level : BitVec 32}
    (hx : x ≠ []) (hl : 1 ≤ level.toInt ∧ level.toInt ≤ 22) (henv : env.canAlloc (z.bound x.length) = true) :
    (calcSize env (lib z lz) x level .zstandard).toOption = ((raw z).compress level x).map List.length := by
  obtain ⟨a, ha⟩ := Option.isSome_iff_exists.mp ha
  have hlen : x.length ≠ 0 := fun hn => hx (List.length_eq_zero_iff.mp hn)
  have hnew : zstdNew level = some level := if_pos hl
  have hsize : calcSize env (lib z lz) x level .zstandard =
      ((lib z lz).compress level x (z.bound x.length)).mapError (fun _ => .debug "ZStandard estimation failed") := by
    unfold calcSize createSizeEstimator
    simp only [hnew, bind, Except.bind, mapErr, zstd, if_neg hlen, Except.mapError]
    change (if z.bound x.length = 0 then _ else if env.canAlloc (z.bound x.length) = true then _ else _) = _
    by_cases hb : z.bound x.length = 0
    · rw [if_pos hb, hb]
    · rw [if_neg hb, if_pos henv]
      rfl
  have he := estimatorCompress_wrapped h level x (List.replicate (z.bound x.length) 0) idle
  have hr := rawCompress_wrapped h level x (List.replicate (z.bound x.length) 0) idle
  have hwi := h.within (bare level) x (z.bound x.length)
  have hwr := h.written (bare level) x (z.bound x.length)
  unfold Wrapped at he hr
  rw [ha] at he hr
  dsimp only at he hr
  rw [List.length_replicate] at he hr
  rw [hsize]
  unfold lib raw maxAlloc
  dsimp only
  rw [he, hr]
  generalize z.compress (bare level) x (z.bound x.length) = answer at hwi hwr ⊢
  rcases hq : z.isError answer.1
  · have := hwr hq
    simp [Except.mapError, Except.toOption, hwi, this]
  · simp [Except.mapError, Except.toOption]

/-- **C107**, there is always room: if zstd keeps its promise that compression succeeds in a destination of `ZSTD_compressBound` bytes, then
the debug commands and the estimator, which take as much, get a result whenever there is a context. -/
theorem C107_room {z : Library} (h : Documented z) {x : Buf} (hroom : ∀ p, z.isError (z.compress p x (z.bound x.length)).1 = false)
    (lz : Buf → Nat) {memory : Nat → Buf} (hm : ∀ n, (memory n).length = n) (level : BitVec 32) :
    (∀ s, (z.address s).isSome → ∃ packed n s', compressData z memory x level s = some (.ok (packed, n), s') ∧
      n ≤ packed.length ∧ packed.length = z.bound x.length) ∧
    ((z.address idle).isSome → (1 ≤ level.toInt ∧ level.toInt ≤ 22) → ∀ env : Env, env.canAlloc (z.bound x.length) = true →
      ∃ n, calcSize env (lib z lz) x level .zstandard = .ok n ∧ n ≤ z.bound x.length) := by
  have hok := hroom (bare level)
  have hwi := h.within (bare level) x (z.bound x.length)
  have hwr := h.written (bare level) x (z.bound x.length) hok
  refine ⟨fun s hs => ?_, fun ha hl env henv => ?_⟩
  · obtain ⟨a, ha⟩ := Option.isSome_iff_exists.mp hs
    have hw := rawCompress_wrapped h level x (memory (maxAlloc z x.length)) s
    unfold Wrapped at hw
    rw [ha, hm] at hw
    dsimp only at hw
    unfold maxAlloc at hw
    rw [hok] at hw
    refine ⟨(z.compress (bare level) x (z.bound x.length)).2, (z.compress (bare level) x (z.bound x.length)).1, ⟨s.live, s.created + 1⟩, ?_,
      by rw [hwi]; exact hwr, hwi⟩
    unfold compressData maxAlloc
    rw [hw]
    rfl
  · by_cases hx : x = []
    · subst hx
      refine ⟨0, ?_, Nat.zero_le _⟩
      unfold calcSize createSizeEstimator
      simp [show zstdNew level = some level from if_pos hl, bind, Except.bind, mapErr, zstd, Except.mapError]
    · have he := C107_exact h ha lz hx hl henv
      obtain ⟨a, ha⟩ := Option.isSome_iff_exists.mp ha
      have hw := rawCompress_wrapped h level x (List.replicate (z.bound x.length) 0) idle
      unfold Wrapped at hw
      rw [ha, List.length_replicate] at hw
      dsimp only at hw
      rw [hok] at hw
      unfold raw maxAlloc at he
      dsimp only at he
      rw [hw] at he
      rcases hc : calcSize env (lib z lz) x level .zstandard with e | n
      · rw [hc] at he
        simp [Except.toOption] at he
      · rw [hc] at he
        refine ⟨n, rfl, ?_⟩
        simp only [Except.toOption, Bool.false_eq_true, if_false, Option.map_some, Option.some.injEq, List.length_take, hwi] at he
        omega

/-! ## Examples -/

/-- A frame is the data after the magic number, or just after a zero byte without it. -/
def exampleFrame (magicless : Bool) (x : Buf) : Buf := (if magicless then [] else [0x28, 0xB5, 0x2F, 0xFD]) ++ (0 : Byte) :: x

/-- The data of a frame. -/
def exampleData (magicless : Bool) (x : Buf) : Option Buf :=
  if magicless then some (x.drop 1) else if x.take 4 = [0x28, 0xB5, 0x2F, 0xFD] then some (x.drop 5) else none

theorem exampleData_frame (m : Bool) (x : Buf) : exampleData m (exampleFrame m x) = some x := by
  cases m <;> simp [exampleData, exampleFrame]

/-- A library that copies. -/
def exampleZstd : Library where
  bound n := n + 5
  address s := some ((s.live.map (·.1)).sum + 1)
  compress p x n :=
    if (exampleFrame p.magicless x).length ≤ n ∧ n < 2 ^ 32 then
      ((exampleFrame p.magicless x).length, exampleFrame p.magicless x ++ List.replicate (n - (exampleFrame p.magicless x).length) 0)
    else (2 ^ 64 - 70, List.replicate n 0)
  decompress f x n := match exampleData f x with
    | some d => if d.length ≤ n then (d.length, d ++ List.replicate (n - d.length) 0) else (2 ^ 64 - 70, List.replicate n 0)
    | none => (2 ^ 64 - 10, List.replicate n 0)
  isError r := decide (2 ^ 64 - 120 < r)
  errorCode r := 2 ^ 64 - r

theorem below_sum : ∀ (l : List (Nat × Context)) (a : Nat) (c : Context), (a, c) ∈ l → a ≤ (l.map (·.1)).sum
  | [], _, _, h => nomatch h
  | y :: l, a, c, h => by
    rcases List.mem_cons.mp h with rfl | h
    · simp
    · have := below_sum l a c h
      simp only [List.map_cons, List.sum_cons]
      omega

theorem example_documented : Documented exampleZstd where
  fresh s a h c hm := by
    have := below_sum s.live a c hm
    simp only [exampleZstd, Option.some.injEq] at h
    omega
  within p x n := by
    simp only [exampleZstd]
    split
    · rw [List.length_append, List.length_replicate]
      omega
    · simp
  written p x n h := by
    simp only [exampleZstd] at h ⊢
    split at h
    · rename_i hc
      rw [if_pos hc]
      exact hc.1
    · simp at h
  withinD f x n := by
    simp only [exampleZstd]
    rcases exampleData f x with _ | d
    · simp
    · dsimp only
      split
      · rw [List.length_append, List.length_replicate]
        omega
      · simp
  inverse p x n h := by
    simp only [exampleZstd] at h ⊢
    split at h
    · rename_i hc
      rw [if_pos hc]
      dsimp only
      rw [List.take_left' rfl, exampleData_frame]
      have : x.length ≤ (exampleFrame p.magicless x).length := by
        unfold exampleFrame
        simp only [List.length_append, List.length_cons]
        omega
      simp
      omega
    · simp at h

/-- The example has room for all data of less than 4 GiB. -/
theorem example_room (x : Buf) (hx : x.length < 2 ^ 32 - 5) (p : Params) :
    exampleZstd.isError (exampleZstd.compress p x (exampleZstd.bound x.length)).1 = false := by
  have : (exampleFrame p.magicless x).length ≤ x.length + 5 := by
    unfold exampleFrame
    cases p.magicless <;> simp
  simp only [exampleZstd]
  rw [if_pos ⟨this, by omega⟩]
  simp
  omega

example := C107_room example_documented (example_room [1, 2, 3] (by decide)) List.length (memory := fun n => List.replicate n 7) (by simp) 3

/-- Both functions on three bytes, with contexts of others around: sizes 4 and 4, the contexts as before. -/
example :
    (estimatorCompress exampleZstd 3 [1, 2, 3] (List.replicate 8 7) ⟨[(12, .decompression false)], 4⟩).map (fun r => (r.1.toOption, r.2)) =
      some (some 4, [0, 1, 2, 3, 0, 0, 0, 0], ⟨[(12, .decompression false)], 5⟩) ∧
    (rawCompress exampleZstd 3 [1, 2, 3] (List.replicate 8 7) ⟨[(12, .decompression false)], 4⟩).map (fun r => (r.1.toOption, r.2)) =
      some (some 4, [0, 1, 2, 3, 0, 0, 0, 0], ⟨[(12, .decompression false)], 5⟩) ∧
    (rawDecompress exampleZstd [0, 1, 2, 3] (List.replicate 3 7) idle).map (fun r => (r.1.toOption, r.2)) = some (some 3, [1, 2, 3], ⟨[], 1⟩) := by
  decide +kernel

/-- Too little room: the error of zstd, and no context is left. -/
example : (rawCompress exampleZstd 3 [1, 2, 3] [7, 7] idle).map (fun r => (match r.1 with | .error e => e | .ok _ => 0, r.2)) =
    some (70, [0, 0], ⟨[], 1⟩) := by decide +kernel

/-- The data that the benchmark compresses. -/
example : Inverse (raw exampleZstd) ∧ (raw exampleZstd).compress 16 [1, 2, 3] = some [0, 1, 2, 3] :=
  ⟨C107_inverse example_documented rfl, by decide +kernel⟩

/-- The condition `x ≠ []` is necessary: the estimate for no data is 0 bytes, but a frame of no data has some. -/
theorem C107_exact_empty : (calcSize ⟨fun _ => true, 2 ^ 64 - 1⟩ (lib exampleZstd List.length) [] 3 .zstandard).toOption = some 0 ∧
    ((raw exampleZstd).compress 3 []).map List.length = some 1 := by decide +kernel

/-- So is the condition on the level: the estimator refuses 0, zstd takes it. -/
theorem C107_exact_level : (calcSize ⟨fun _ => true, 2 ^ 64 - 1⟩ (lib exampleZstd List.length) [1, 2, 3] 0 .zstandard).toOption = none ∧
    ((raw exampleZstd).compress 0 [1, 2, 3]).map List.length = some 4 := by decide +kernel

end Dlt.Props
