import Verif.Lemmas.Stops
/-!
# C117: in the parallel dry run of the benchmark commands a call that fails is the last of its file
-/

namespace Dlt.Props

open Dlt.Cache Dlt.DebugIo Dlt.DebugStats Dlt.DebugBench Dlt.DryRun
open Dlt.Dds Dlt.FileFormats Dlt.FileIo Dlt.FileIo.Prog Dlt.Cli

/-- What the dry run relies on: addresses of more than 32 bits and a release build, files of less than 4 GiB, an allocator that gives the
size requested, and a supported algorithm.  Nothing is assumed about the caches, the hash and the compressor. -/
structure PlainSetting {S : Type} (s : Setup S) : Prop where
  wide : Wide s.pl
  release : s.pl.overflowChecks = false
  small : ∀ p ∈ s.entries, ∀ b, s.files p = some b → b.length < 2 ^ 32 ∧ b.length ≤ s.os.usizeMax
  heap : ∀ i, (s.heap i).Wf
  algorithm : s.opts.algorithm = .zstandard

/-- A call asks for a compression. -/
def ForCompression : Call → Prop
  | .compress _ _ _ => True
  | .size _ _ _ => False

section
variable {S : Type} {s : Setup S} {D : Buf → Prop} {T : Buf → S → Buf} {B : Nat} {F : Call → Prop}

/-- A call in `F` that fails is the last one of its thread. -/
theorem calls_stop (hs : DrySetting s D T B) {i : Nat}
    (hf : ∀ p b, s.entries[i]? = some p → Found s.os s.files s.format p b → SearchStops F (s.codec i) (textureOf b)) {v : Nat → Option Nat}
    {l : List Call} (hl : calls s i v = some l) {k : Nat} {c : Call} (hk : l[k]? = some c) (hc : F c) (hn : v k = none) :
    k + 1 = l.length := by
  by_cases hfound : ∃ p b, s.entries[i]? = some p ∧ Found s.os s.files s.format p b
  · obtain ⟨p, b, hp, hb⟩ := hfound
    rw [calls_found hs hp hb] at hl
    obtain ⟨⟨t, x⟩, h1, rfl⟩ := Option.map_eq_some_iff.1 hl
    obtain ⟨h2, _, h3⟩ := dryTexture_stops (hf p b hp hb) (s.heap i) s.lib s.opts ⟨v, []⟩ t x (fun m x hm => by simp at hm) h1
    exact h3 k c hk hc (by rw [h2]; exact hn)
  · rw [calls_none hs (fun p b hp hb => hfound ⟨p, b, hp, hb⟩)] at hl
    cases hl
    simp at hk

/-- After a call in `F` that failed a thread does nothing. -/
theorem failed_last (hs : DrySetting s D T B)
    (hf : ∀ i p b, s.entries[i]? = some p → Found s.os s.files s.format p b → SearchStops F (s.codec i) (textureOf b)) {ok : Pc → Pc → Prop}
    {sizes : Sizes} {files : List Char → Option Buf} {st : DryRun.State} (h : Reached s ok sizes files st) {i k : Nat} {c : Call}
    (hk : (st.threads i).past[k]? = some (c, .error)) (hc : F c) : k + 1 = (st.threads i).past.length ∧ (st.threads i).now = none := by
  let v : Nat → Option Nat := fun k => ((st.threads i).past[k]?).bind fun e => outcome e.2
  obtain ⟨l, h1, _⟩ := calls_total hs i v
  have hsaw : Saw (st.threads i).past v := by
    intro k c r hk
    simp only [v, hk, Option.bind_some]
  have hp := made_prefix hs h i v l hsaw h1
  have hlt := (List.getElem?_eq_some_iff.1 hk).1
  have hm : (callsMade (st.threads i))[k]? = some c := by
    rw [callsMade, List.getElem?_append_left (by simpa using hlt), List.getElem?_map, hk]
    rfl
  have hlast := calls_stop hs (hf i) h1 (by obtain ⟨rest, rfl⟩ := hp; rw [List.getElem?_append_left (List.getElem?_eq_some_iff.1 hm).1]; exact hm) hc (hsaw k c .error hk)
  have hlen := hp.length_le
  rw [callsMade, List.length_append, List.length_map] at hlen
  rcases hnow : (st.threads i).now with _ | e
  · exact ⟨by omega, rfl⟩
  · rw [hnow] at hlen
    simp at hlen
    omega

theorem PlainSetting.dry (h : PlainSetting s) (hw : ∀ i p b, s.entries[i]? = some p → Found s.os s.files s.format p b →
    Works (s.codec i) D (textureOf b) (T (textureOf b)) ∧ DryWorks (s.codec i) B (textureOf b)) : DrySetting s D T B :=
  ⟨h.wide, h.release, h.small, h.heap, h.algorithm, hw⟩

end

section
variable (os : Os) (pl : Platform) (lib : Lib) (raw : Raw) (hash : Buf → BitVec 128) (opts : AlgorithmOptions)
  (fs : Path → Option Buf) (entries : List Path) (heap : Nat → Heap) (menv : Nat → Env) (useAll : Bool)
  {ok : Pc → Pc → Prop} {sizes : Sizes} {files : List Char → Option Buf} {st : DryRun.State}

/-- **C117** (BC1): whatever the threads do and whatever fails, a thread of the dry run in which a compression fails, or without
`--experimental-normalize` any call, has stopped: it makes no further call. -/
theorem C117_bc1 (norm : Option (Nat → Norm.Bc1.Heap)) (h : PlainSetting (setup1 os pl lib raw hash opts fs entries heap menv useAll norm))
    (hr : Reached (setup1 os pl lib raw hash opts fs entries heap menv useAll norm) ok sizes files st) {i k : Nat} {c : Call}
    (hk : (st.threads i).past[k]? = some (c, .error)) (hc : norm = none ∨ ForCompression c) :
    k + 1 = (st.threads i).past.length ∧ (st.threads i).now = none := by
  have hs := h.dry (D := Seen (DebugBench.bc1 (menv 0) pl.m useAll none) os fs .bc1 entries) (T := fun d s => Bc1.encode pl.m.endian s d) (B := 48) fun i p b hi hb => by
    have hwi := works1 (os := os) (files := fs) (entries := entries) (menv i) pl.m useAll (norm.map fun x => x i)
      (List.mem_of_getElem? hi) hb
    exact ⟨hwi, dryWorks1 _ _ _ _ hb.blocks⟩
  rcases hc with rfl | hc
  · exact failed_last hs (F := fun _ => True) (fun i p b _ _ => searchStops1 (menv i) pl.m useAll _) hr hk trivial
  · exact failed_last hs (F := ForCompression) (fun i p b hp hb => searchStops_sizes (hs.works i p b hp hb).2 fun _ _ _ h => h) hr hk hc

/-- **C117** (BC2): any call. -/
theorem C117_bc2 (h : PlainSetting (setup2 os pl lib raw hash opts fs entries heap menv useAll))
    (hr : Reached (setup2 os pl lib raw hash opts fs entries heap menv useAll) ok sizes files st) {i k : Nat} {c : Call}
    (hk : (st.threads i).past[k]? = some (c, .error)) : k + 1 = (st.threads i).past.length ∧ (st.threads i).now = none := by
  have hs := h.dry (D := Seen (DebugBench.bc2 (menv 0) pl.m useAll) os fs .bc2 entries) (T := fun d s => Bc2.encode pl.m.endian s d) (B := 16) fun i p b hi hb => by
    exact ⟨works2 (os := os) (files := fs) (entries := entries) (menv i) pl.m useAll (List.mem_of_getElem? hi) hb,
      dryWorks2 (menv i) pl.m useAll hb.blocks⟩
  exact failed_last hs (F := fun _ => True) (fun i p b _ _ => searchStops2 (menv i) pl.m useAll _) hr hk trivial

/-- **C117** (BC3): any call. -/
theorem C117_bc3 (h : PlainSetting (setup3 os pl lib raw hash opts fs entries heap menv useAll))
    (hr : Reached (setup3 os pl lib raw hash opts fs entries heap menv useAll) ok sizes files st) {i k : Nat} {c : Call}
    (hk : (st.threads i).past[k]? = some (c, .error)) : k + 1 = (st.threads i).past.length ∧ (st.threads i).now = none := by
  have hs := h.dry (D := Seen (DebugBench.bc3 (menv 0) pl.m useAll) os fs .bc3 entries) (T := fun d s => Bc3.encode pl.m.endian s d) (B := 64) fun i p b hi hb => by
    exact ⟨works3 (os := os) (files := fs) (entries := entries) (menv i) pl.m useAll (List.mem_of_getElem? hi) hb,
      dryWorks3 (menv i) pl.m useAll hb.blocks⟩
  exact failed_last hs (F := fun _ => True) (fun i p b _ _ => searchStops3 (menv i) pl.m useAll _) hr hk trivial

end

/-! ## Cases that meet the hypotheses -/

theorem examplePlain : PlainSetting exampleDryRun :=
  ⟨exampleParallel.wide, exampleParallel.release, exampleParallel.small, exampleParallel.heap, exampleParallel.algorithm⟩

/-- The estimator fails at the first question of `a.dds`: an execution in which a call has failed. -/
example : ∃ st c, Reached exampleDryRun Anything [] (fun _ => none) st ∧ (st.threads 0).past[0]? = some (c, .error) ∧
    (st.threads 0).past.length = 1 ∧ (st.threads 0).now = none := by
  obtain ⟨l, c, hl, hc, d, lv, a, rfl⟩ : ∃ l c, calls exampleDryRun 0 (fun _ => some 5) = some l ∧ l[0]? = some c ∧
      ∃ d lv a, c = .size d lv a := by
    have h : (calls exampleDryRun 0 fun _ => some 5).map (fun l => l[0]?.map fun c => match c with
      | .size _ _ _ => true
      | .compress _ _ _ => false) = some (some true) := by decide +kernel
    obtain ⟨l, h1, h2⟩ := Option.map_eq_some_iff.1 h
    obtain ⟨c, h3, h4⟩ := Option.map_eq_some_iff.1 h2
    cases c with
    | size d lv a => exact ⟨l, _, h1, h3, d, lv, a, rfl⟩
    | compress d lv a => exact nomatch h4
  have s0 : Reached exampleDryRun Anything [] (fun _ => none) ⟨⟨[], fun _ => none, []⟩, fun _ => ⟨[], none⟩⟩ := .start
  have s1 := s0.step (.call 0 (fun _ => some 5) (by decide) rfl (fun k c r hk => by simp at hk) hl hc)
  have s2 := s1.step (.work (pc' := .estimating) 0 (congrArg Thread.now (State.set_same _ _ _)) (Local.miss rfl) trivial trivial)
  have s3 := s2.step (.work (pc' := .done .error) 0 (congrArg Thread.now (State.set_same _ _ _)) Local.estimatorFails trivial trivial)
  have s4 := s3.step (.back 0 (congrArg Thread.now (State.set_same _ _ _)))
  exact ⟨_, _, s4, rfl, rfl, rfl⟩

/-- A texture of one block in one colour, with `--experimental-normalize`. -/
def exampleNormDryRun : Setup ColourSettings :=
  setup1 openOs somePlatform exampleLib exampleRaw exampleHash {}
    (fun p => if p = ["d", "a.dds"] then some (ddsHeader 0x1007#32 4#32 4#32 1#32 4#32 "DXT1" [] ++ [0, 0xF8, 0, 0xF8, 0, 0, 0, 0]) else none)
    [["d", "a.dds"]] (fun _ => exampleAnswers.heap) (fun _ => ⟨fun _ => true, 2 ^ 64 - 1⟩) false
    (some fun _ => ⟨fun _ _ => true, fun _ _ => 0, 2 ^ 64 - 1⟩)

/-- So the condition of `C117_bc1` is needed: with `--experimental-normalize` the thread goes on after an estimate that failed, and stops
after a compression that failed. -/
example : (calls exampleNormDryRun 0 fun _ => some 5).map List.length = some 18 ∧
    (calls exampleNormDryRun 0 fun k => if k = 0 then none else some 5).map List.length = some 18 ∧
    (calls exampleNormDryRun 0 fun k => if k = 13 then none else some 5).map List.length = some 14 := by decide +kernel

end Dlt.Props
