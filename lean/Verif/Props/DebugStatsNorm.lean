import Verif.Props.DebugStats
import Verif.Props.NormTransform
import Verif.Model.DebugBench
/-!
# C68 with the option `--experimental-normalize` of the BC1 command
-/

namespace Dlt.Norm.Bc1
open Dlt.Norm Dlt.Bc1 Dlt.Spec

/-- Two estimators that agree on what they are shown choose the same candidate. -/
theorem testLoop_alike {σ₁ σ₂ E : Type} {R : σ₁ → σ₂ → Prop} (m : Machine) (e₁ : Estimator σ₁ E) (e₂ : Estimator σ₂ E) {n : Nat} (comp : Nat) :
    ∀ (cs : List (Details × Buf)) (work : Buf) (st₁ : σ₁) (st₂ : σ₂) (best : Details) (bs : Nat),
      (∀ c ∈ cs, ∃ data rest : Buf, data.length = n * 8 ∧ c.2 = sect n 0 4 (block 8 data) ++ rest ∧
        ∀ st₁ st₂, R st₁ st₂ →
          let x := slice (encode m.endian c.1.untransformSettings data) 0 (n * 4)
          (e₁.estimate st₁ x comp).2 = (e₂.estimate st₂ x comp).2 ∧ R (e₁.estimate st₁ x comp).1 (e₂.estimate st₂ x comp).1) →
      n * 4 ≤ work.length → R st₁ st₂ →
      ∃ work' st₁' st₂' best', testLoop m e₁ (n * 8) comp cs work st₁ best bs = some (work', st₁', best') ∧
        testLoop m e₂ (n * 8) comp cs work st₂ best bs = some (work', st₂', best') ∧ n * 4 ≤ work'.length ∧ R st₁' st₂'
  | [], work, st₁, st₂, best, _, _, hw, hr => ⟨work, st₁, st₂, best, rfl, rfl, hw, hr⟩
  | (d, inp) :: cs, work, st₁, st₂, best, bs, hc, hw, hr => by
    obtain ⟨data, rest, hd, rfl, he⟩ := hc (d, inp) (by simp)
    have hl : (slice (encode m.endian d.untransformSettings data) 0 (n * 4)).length = n * 4 := by
      apply slice_length_of_le
      rw [encode_length _ _ (by omega)]; omega
    have hp := prepareVariant_eq m (rest := rest) d hd hw
    have hw' : n * 4 ≤ (slice (encode m.endian d.untransformSettings data) 0 (n * 4) ++ work.drop (n * 4)).length := by
      rw [List.length_append]; omega
    have ih := fun st₁ st₂ best bs => testLoop_alike m e₁ e₂ comp cs _ st₁ st₂ best bs (fun c h => hc c (by simp [h])) hw'
    have hsl : slice (slice (encode m.endian d.untransformSettings data) 0 (n * 4) ++ work.drop (n * 4)) 0 (n * 4) =
        slice (encode m.endian d.untransformSettings data) 0 (n * 4) := by
      rw [slice_append_left _ _ _ _ (by omega), slice_all hl]
    simp only [testLoop]
    rw [hp]
    simp only [Option.bind_eq_bind, Option.bind_some, show n * 8 / 2 = n * 4 by omega]
    rw [hsl]
    obtain ⟨h1, h2⟩ := he st₁ st₂ hr
    dsimp only at h1 h2
    rcases hm1 : e₁.estimate st₁ (slice (encode m.endian d.untransformSettings data) 0 (n * 4)) comp with ⟨a, r1⟩
    rcases hm2 : e₂.estimate st₂ (slice (encode m.endian d.untransformSettings data) 0 (n * 4)) comp with ⟨b, r2⟩
    rw [hm1, hm2] at h1 h2
    dsimp only at h1 h2
    subst h1
    cases r1 with
    | error e => exact ih a b best bs h2
    | ok size =>
      dsimp only
      split
      · exact ih a b d size h2
      · exact ih a b best bs h2

end Dlt.Norm.Bc1

namespace Dlt.Props
open Dlt.Cache Dlt.DebugIo Dlt.DebugStats Dlt.Norm Dlt.Spec

/-- What the candidates are tested on. -/
theorem tested_eq {data : Buf} {n : Nat} (hd : data.length = n * 8) {x : Nat} {mode : Mode} (hx : Mode.all[x]? = some mode) :
    (whitened data).length = n * 8 ∧
    Norm.Bc1.tested data n x = mapBlocks 8 (Norm.Bc1.norm mode) (if mode = .none then whitened data else data) n := by
  have hn : data.length / 8 = n := by omega
  have hkind : ∀ i, i < n → ((Norm.Bc1.kind (pix1 (block 8 data i))).1 = .transparent ↔ Transparent (block 8 data i)) := by
    intro i hi
    rw [transparent_iff (block_len (by omega) hi)]
    refine ⟨fun hk => Norm.Bc1.kind_transparent (c := (Norm.Bc1.kind (pix1 (block 8 data i))).2) (Prod.ext hk rfl),
      fun hk => by rw [Norm.Bc1.kind_of_transparent hk]⟩
  have hwl : (whitened data).length = n * 8 := by
    unfold whitened
    rw [hn]
    apply flatMap_range_length
    intro i hi
    split
    · simp
    · exact block_len (by omega) hi
  refine ⟨hwl, ?_⟩
  match x, hx with
  | 0, hx =>
    obtain rfl := Option.some.inj hx
    rw [if_pos rfl]
    have e : mapBlocks 8 (Norm.Bc1.norm .none) (whitened data) n = whitened data := by
      have : mapBlocks 8 (Norm.Bc1.norm .none) (whitened data) n = mapBlocks 8 id (whitened data) n :=
        mapBlocks_congr fun i _ => rfl
      rw [this, mapBlocks_id (by omega), ← hwl, List.take_length]
    rw [e]
    unfold Norm.Bc1.tested whitened mapBlocks
    rw [hn]
    apply flatMap_congr_range
    intro i hi
    rw [Norm.Bc1.modesOut_none (by simp)]
    simp only [hkind i hi]
  | 1, hx =>
    obtain rfl := Option.some.inj hx
    rw [if_neg (fun e => nomatch e)]
    exact mapBlocks_congr fun i hi => Norm.Bc1.modesOut_mode _ (.inl rfl) _
  | 2, hx =>
    obtain rfl := Option.some.inj hx
    rw [if_neg (fun e => nomatch e)]
    exact mapBlocks_congr fun i hi => Norm.Bc1.modesOut_mode _ (.inr rfl) _
  | x + 3, hx => simp [Mode.all] at hx

/-- The data whose sizes are asked for: as without the option, and the colours of the normalized textures (for the mode `None` those of the
texture with transparent blocks replaced, see C58). -/
def AskedNorm (m : Machine) (data x : Buf) : Prop :=
  Asked1 m data x ∨ ∃ (d : Norm.Bc1.Details) (r : Buf × Buf),
    Norm.Bc1.transformNormalize m (if d.norm = .none then whitened data else data) (List.replicate data.length 0)
      (List.replicate (data.length / 2) 0) data.length d = some r ∧ x = slice r.1 0 (data.length / 2)

/-- The search that normalizes, with an estimator without cache. -/
def plainNorm (h : Norm.Bc1.Heap) (m : Machine) (useAll : Bool) (data : Buf) (inner : Estimator Unit CliError) (out : Buf) :
    Option (Buf × Unit × Except (DetermineBestError CliError) ColourSettings) :=
  (Norm.Bc1.autoNormalize h m inner useAll data out data.length ()).map fun r => (r.1, r.2.1, r.2.2.map fun d => ⟨d.decorr, d.split⟩)

theorem soundNorm (env : Env) (h : Norm.Bc1.Heap) (m : Machine) (useAll : Bool) (lib : Lib) (hl : Ample lib) (hash : Buf → BitVec 128)
    (data : Buf) (hB : data.length % 8 = 0) :
    Sound (DebugBench.bc1 env m useAll (some h)).toCodec lib hash (AskedNorm m data) data (fun s => Bc1.encode m.endian s data)
      (plainNorm h m useAll data) (∀ k n, h.canAlloc k n = true) := by
  obtain ⟨n, hd⟩ : ∃ n, data.length = n * 8 := ⟨data.length / 8, by omega⟩
  have q2 : data.length / 2 = n * 4 := by omega
  have s1 := sound1 ⟨h.canAlloc 8, h.usizeMax⟩ m useAll lib hl hash data hB (AskedNorm m data) (fun _ h => .inl h)
  refine ⟨s1.transform, s1.length, s1.given, s1.shown, ?_⟩
  intro σ _ Inv hf a level inner out cache hcr ho hc
  have hmaxeq := (created lib hl a level inner hcr).1
  -- it suffices to look at the search itself
  suffices H : ∃ o cache' r, Norm.Bc1.autoNormalize h m (cachedEstimator hash level a inner) useAll data out data.length cache =
        some (o, cache', r) ∧ Norm.Bc1.autoNormalize h m inner useAll data out data.length () = some (o, (), r) ∧
      Inv cache' ∧
      ((∀ k n, h.canAlloc k n = true) → (∀ x, AskedNorm m data x → trueSize lib a level x ≠ none) → ∃ d, r = .ok d) by
    obtain ⟨o, cache', r, h1, h2, h3, h4⟩ := H
    refine ⟨o, cache', r.map fun d => ⟨d.decorr, d.split⟩, ?_, ?_, h3, fun hm ht => ?_⟩
    · change DebugBench.autoNormalized h m useAll _ data out data.length cache = _
      unfold DebugBench.autoNormalized
      rw [h1]
      rfl
    · unfold plainNorm
      rw [h2]
      rfl
    · obtain ⟨d, rfl⟩ := h4 hm ht
      exact ⟨_, rfl⟩
  -- the body with the scratch buffer that the estimator asks for
  have body : ∀ k, k = neededMemory lib a (data.length / 2) → ∃ o cache' r,
      Norm.Bc1.autoBody h m (cachedEstimator hash level a inner) useAll data out data.length k cache = some (o, cache', r) ∧
      Norm.Bc1.autoBody h m inner useAll data out data.length k () = some (o, (), r) ∧
      Inv cache' ∧
      ((∀ k n, h.canAlloc k n = true) → (∀ x, AskedNorm m data x → trueSize lib a level x ≠ none) → ∃ d, r = .ok d) := by
    intro k hk
    unfold Norm.Bc1.autoBody
    rw [hd, Norm.Bc1.allModes_fresh h hd, ← hd]
    simp only [Option.bind_eq_bind, Option.bind_some]
    by_cases hany : Norm.Bc1.someNorm data n = true
    · rw [if_pos hany, if_pos hany]
      by_cases hA : (h.canAlloc 4 data.length && h.canAlloc 5 data.length && h.canAlloc 6 data.length) = true
      · rw [if_pos hA, if_pos hA]
        obtain ⟨t0, t1, t2, e0, e1, e2, _, hcf⟩ := Norm.Bc1.candidates_form m useAll h hd
        simp only [List.getElem?_cons_zero, List.getElem?_cons_succ, Option.bind_some]
        rw [hd, e0, e1, e2, ← hd]
        simp only [Option.bind_some]
        by_cases hW : h.canAlloc 7 (data.length / 2) = true
        · rw [if_pos hW, if_pos hW]
          obtain ⟨w, c1, u1, best, f1, f2, f3, f4⟩ := Norm.Bc1.testLoop_alike
            (R := fun (cache : σ) (_ : Unit) => Inv cache) m (cachedEstimator hash level a inner) inner k
            (Norm.Bc1.candidates useAll [t0, t1, t2]) (h.buf 7 (data.length / 2)) cache () .default h.usizeMax
            (n := n) (fun c hcm => by
              obtain ⟨x, rest, hx, hxe⟩ := hcf c hcm
              obtain ⟨hwl, hte⟩ := tested_eq hd hx
              refine ⟨_, rest, Norm.Bc1.tested_length hd x, hxe, fun cache _ hr => ?_⟩
              dsimp only
              have hlen : (slice (Bc1.encode m.endian c.1.untransformSettings (Norm.Bc1.tested data n x)) 0 (n * 4)).length ≤ data.length / 2 := by
                simp only [slice, List.length_take]
                omega
              refine cached_alike hl hf hcr hr (.inr ⟨c.1, ?_⟩) (by rw [hk]; exact neededMemory_mono hl _ hlen)
              have hdl : (if c.1.norm = .none then whitened data else data).length = n * 8 := by split <;> assumption
              obtain ⟨w, _, e⟩ := Norm.Bc1.transformNormalize_eq m c.1 hdl (by simp; omega : n * 8 ≤ (List.replicate data.length (0 : Byte)).length)
                (by simp; omega : n * 4 ≤ (List.replicate (data.length / 2) (0 : Byte)).length)
              rw [← hd] at e
              refine ⟨_, e, ?_⟩
              rw [q2, hte, slice_append_left _ _ _ _ (by
                rw [Bc1.encode_length _ _ (by
                  rw [mapBlocks_length (Norm.Bc1.norm_length _) (by omega)]; omega), mapBlocks_length (Norm.Bc1.norm_length _) (by omega)]
                omega)])
            (by rw [Norm.Bc1.Heap.buf_length]; omega) hc
          rw [← hd] at f1 f2
          rw [f1, f2]
          simp only [Option.bind_some]
          obtain ⟨w', _, e⟩ := Norm.Bc1.transformNormalize_eq m best hd (by omega : n * 8 ≤ out.length) f3
          rw [← hd] at e
          rw [e]
          exact ⟨_, c1, .ok best, rfl, rfl, f4, fun _ _ => ⟨_, rfl⟩⟩
        · rw [if_neg hW, if_neg hW]
          exact ⟨_, _, _, rfl, rfl, hc, fun hm _ => absurd (hm _ _) hW⟩
      · rw [if_neg hA, if_neg hA]
        exact ⟨_, _, _, rfl, rfl, hc, fun hm _ => absurd (by rw [hm, hm, hm]; rfl) hA⟩
    · rw [if_neg hany, if_neg hany]
      obtain ⟨o, c1, r, g1, g2, g3, g4⟩ := s1.auto Inv hf a level inner out cache hcr ho hc
      have g1' : Bc1.transformAuto ⟨h.canAlloc 8, h.usizeMax⟩ m (cachedEstimator hash level a inner) useAll data out data.length cache =
        some (o, c1, r) := g1
      rw [g1', g2]
      refine ⟨o, c1, r.map Norm.Bc1.Details.ofSettings, rfl, rfl, g3, fun hm ht => ?_⟩
      obtain ⟨s, rfl⟩ := g4 (fun n => hm _ _) ht
      exact ⟨_, rfl⟩
  unfold Norm.Bc1.autoNormalize
  split
  · have e1 : (cachedEstimator hash level a inner).maxSize cache (data.length / 2) = (cache, .ok (neededMemory lib a (data.length / 2))) := by
      simp only [cachedEstimator, hmaxeq]
    have e2 : inner.maxSize () (data.length / 2) = ((), .ok (neededMemory lib a (data.length / 2))) := hmaxeq () _
    rw [e1, e2]
    dsimp only
    split
    · next h0 => 
      rw [← h0]
      exact body _ rfl
    split
    · exact body _ rfl
    · next hn => exact ⟨_, _, _, rfl, rfl, hc, fun hm _ => absurd (hm _ _) hn⟩
  · next hn => exact ⟨_, _, _, rfl, rfl, hc, fun hm _ => absurd (by rw [hm, hm, hm]; rfl) hn⟩

/-- **C68** (BC1 with `--experimental-normalize`): the same, with the recommendation of the search that normalizes.  The sizes reported for
the recommendation are those of the texture transformed without normalization. -/
theorem C68_bc1_normalize (env : Env) (h : Norm.Bc1.Heap) (m : Machine) (useAll : Bool) (heap : Heap) (hw : heap.Wf) (lib : Lib)
    (hl : Ample lib) (hash : Buf → BitVec 128) (level : BitVec 32) (a : Algorithm) (estLevel : BitVec 32) (estAlg : Algorithm) (data : Buf)
    (hB : data.length % 8 = 0) (hi : NoCollision hash (AskedNorm m data)) (cache : Sizes)
    (hc : Truthful lib hash (AskedNorm m data) cache) :
    ∃ cache' r, analyzeTexture (DebugBench.bc1 env m useAll (some h)).toCodec env heap lib hash level a estLevel estAlg data cache =
        some (cache', r) ∧
      Truthful lib hash (AskedNorm m data) cache' ∧
      (∀ res, r = .ok res → Reports lib (Bc1.transformWithSettings m) allColour (plainNorm h m useAll data) level a estLevel estAlg
        data res) ∧
      ((∀ k n, h.canAlloc k n = true) → (∀ n, env.canAlloc n = true) → (∀ k, (heap k data.length).isSome) →
        (∀ x, AskedNorm m data x → trueSize lib a level x ≠ none) →
        (∀ x, AskedNorm m data x → trueSize lib estAlg estLevel x ≠ none) → ∃ res, r = .ok res) :=
  let ⟨c, r, h1, h2, h3, h4⟩ := reports_of_sound hl (truthful_faithful hi) (soundNorm env h m useAll lib hl hash data hB) heap hw level a estLevel estAlg
    cache hc
  ⟨c, r, h1, h2, h3, fun hm hm' => h4 ⟨hm, hm'⟩⟩

/-! ## A concrete case -/

/-- A block of one colour and one that is transparent. -/
def solidTexture : Buf := [0x34, 0x12, 0x34, 0x12, 0x44, 0x11, 0x05, 0x50, 0, 0, 0, 0, 0xFF, 0xFF, 0xFF, 0xFF]

def solidAsked : List Buf := solidTexture :: (allColour.flatMap fun s =>
    ((Bc1.transformWithSettings exampleMachine solidTexture (List.replicate 16 0) 16 s).getD []) ::
      shown1 exampleMachine solidTexture (List.replicate 16 0) s) ++
  Mode.all.flatMap fun mode => allColour.map fun s =>
    slice ((Norm.Bc1.transformNormalize exampleMachine (if mode = .none then whitened solidTexture else solidTexture) (List.replicate 16 0)
      (List.replicate 8 0) 16 ⟨mode, s.decorr, s.split⟩).getD ([], [])).1 0 8

theorem solidAsked_complete (x : Buf) (h : AskedNorm exampleMachine solidTexture x) : x ∈ solidAsked := by
  rcases h with (rfl | ⟨s, h | h⟩) | ⟨⟨mode, v, sp⟩, r, h, rfl⟩
  · exact List.mem_cons_self ..
  · refine List.mem_append_left _ (List.mem_cons_of_mem _ (List.mem_flatMap.2 ⟨s, C66_all_combinations.1 s, ?_⟩))
    have h' : Bc1.transformWithSettings exampleMachine solidTexture (List.replicate 16 0) 16 s = some x := h
    rw [h', Option.getD_some]
    exact List.mem_cons_self ..
  · exact List.mem_append_left _ (List.mem_cons_of_mem _ (List.mem_flatMap.2 ⟨s, C66_all_combinations.1 s, List.mem_cons_of_mem _ h⟩))
  · refine List.mem_append_right _ (List.mem_flatMap.2 ⟨mode, by cases mode <;> decide,
      List.mem_map.2 ⟨⟨v, sp⟩, C66_all_combinations.1 _, ?_⟩⟩)
    have h' : Norm.Bc1.transformNormalize exampleMachine (if mode = .none then whitened solidTexture else solidTexture) (List.replicate 16 0)
      (List.replicate 8 0) 16 ⟨mode, v, sp⟩ = some r := h
    dsimp only
    rw [h']
    rfl

/-- The hypotheses of `C68_bc1_normalize` can be met. -/
example : Ample exampleLib ∧ solidTexture.length % 8 = 0 ∧ NoCollision exampleHash (AskedNorm exampleMachine solidTexture) ∧
    Truthful exampleLib exampleHash (AskedNorm exampleMachine solidTexture) [] := by
  refine ⟨⟨fun _ _ _ _ => rfl, fun i j h => Nat.add_le_add_right h 64⟩, rfl, ?_, fun x _ l a n h => nomatch h⟩
  have : ∀ x ∈ solidAsked, ∀ y ∈ solidAsked, exampleHash x = exampleHash y → x = y := by decide +kernel
  exact fun x y hx hy => this x (solidAsked_complete x hx) y (solidAsked_complete y hy)

/-- The recommendations for this texture with and without the option, and the sizes reported for them. -/
example : ([none, some roomy].map fun norm =>
    ((analyzeTexture (DebugBench.bc1 ⟨fun _ => true, 2 ^ 64 - 1⟩ exampleMachine true norm).toCodec ⟨fun _ => true, 2 ^ 64 - 1⟩
      (fun _ n => some (List.replicate n 0)) exampleLib exampleHash 3 .zstandard 3 .zstandard solidTexture ([] : Sizes)).bind fun r =>
        r.2.toOption.map fun res => (res.api.options, res.api.size))) =
    [some (⟨.v2, false⟩, 10), some (⟨.none, false⟩, 10)] := by decide +kernel

end Dlt.Props
