import Verif.Model.DebugAsserts
import Verif.Props.Safe
/-!
# C55: debug builds
-/

namespace Dlt.Props

/-- **C55**, negation: the safe functions promise results for every pair of slices, but in a debug build untransforming
an empty BC1 slice with split endpoints panics on every x86 machine with SSE2; on others with AVX-512 so do
`transform` for BC1 and for BC3. -/
theorem C55_debug_empty_panics (f : Features) (output : Buf) (v : Variant) :
    (f.sse2 = true → Bc1.untransformSafeDebug (.x86 f) [] output ⟨v, true⟩ = none) ∧
    (f.avx512bw = true → Bc1.transformSafeDebug (.x86 f) [] output ⟨v, true⟩ = none) ∧
    (f.avx512vbmi = true → Bc3.transformSafeDebug (.x86 f) [] output ⟨.none, true, false⟩ = none) := by
  refine ⟨fun h => ?_, fun h => ?_, fun h => ?_⟩
  · simp [Bc1.untransformSafeDebug, Bc1.untransformAsserts, h]
  · simp [Bc1.transformSafeDebug, Bc1.transformAsserts, h]
  · simp [Bc3.transformSafeDebug, Bc3.transformAsserts, h]

/-- **C55**, what holds: for a non-empty input a debug build behaves as a release build, which (C16) always returns a
result.  Missing: the empty input, for which the negation above is proved. -/
theorem C55_debug_nonempty_partial (m : Machine) (input output : Buf) (s : ColourSettings) (t : Bc3.Settings)
    (h : input ≠ []) :
    Bc1.transformSafeDebug m input output s = Bc1.transformSafe m input output s ∧
    Bc1.untransformSafeDebug m input output s = Bc1.untransformSafe m input output s ∧
    Bc3.transformSafeDebug m input output t = Bc3.transformSafe m input output t ∧
    (∃ r, Bc1.transformSafeDebug m input output s = some r) ∧
    (∃ r, Bc1.untransformSafeDebug m input output s = some r) ∧
    (∃ r, Bc3.transformSafeDebug m input output t = some r) := by
  have hpos : 0 < input.length := List.length_pos_iff.2 h
  have e1 : Bc1.transformSafeDebug m input output s = Bc1.transformSafe m input output s :=
    if_neg (fun hc => by omega)
  have e2 : Bc1.untransformSafeDebug m input output s = Bc1.untransformSafe m input output s :=
    if_neg (fun hc => by omega)
  have e3 : Bc3.transformSafeDebug m input output t = Bc3.transformSafe m input output t :=
    if_neg (fun hc => by omega)
  refine ⟨e1, e2, e3, ?_, ?_, ?_⟩
  · rw [e1]
    obtain ⟨h1, h2, h3⟩ := C16_bc1_transform_validation m input output s
    by_cases a : input.length % 8 = 0
    · by_cases b : input.length ≤ output.length
      · obtain ⟨o, _, h4, _⟩ := h3 a b; exact ⟨_, h4⟩
      · exact ⟨_, h2 a (by omega)⟩
    · exact ⟨_, h1 a⟩
  · rw [e2]
    obtain ⟨h1, h2, h3⟩ := C16_bc1_untransform_validation m input output s
    by_cases a : input.length % 8 = 0
    · by_cases b : input.length ≤ output.length
      · obtain ⟨o, _, h4, _⟩ := h3 a b; exact ⟨_, h4⟩
      · exact ⟨_, h2 a (by omega)⟩
    · exact ⟨_, h1 a⟩
  · rw [e3]
    obtain ⟨h1, h2, h3⟩ := C16_bc3_transform_validation m input output t
    by_cases a : input.length % 16 = 0
    · by_cases b : input.length ≤ output.length
      · obtain ⟨o, _, h4, _⟩ := h3 a b; exact ⟨_, h4⟩
      · exact ⟨_, h2 a (by omega)⟩
    · exact ⟨_, h1 a⟩

/-- Returns: the release build always gives a result. -/
theorem release_returns (m : Machine) (input output : Buf) (s : ColourSettings) (t : Bc3.Settings) :
    Bc1.transformSafe m input output s ≠ none ∧ Bc1.untransformSafe m input output s ≠ none ∧
    Bc3.transformSafe m input output t ≠ none := by
  refine ⟨?_, ?_, ?_⟩
  · obtain ⟨h1, h2, h3⟩ := C16_bc1_transform_validation m input output s
    by_cases a : input.length % 8 = 0
    · by_cases b : input.length ≤ output.length
      · obtain ⟨o, _, h4, _⟩ := h3 a b; rw [h4]; simp
      · rw [h2 a (by omega)]; simp
    · rw [h1 a]; simp
  · obtain ⟨h1, h2, h3⟩ := C16_bc1_untransform_validation m input output s
    by_cases a : input.length % 8 = 0
    · by_cases b : input.length ≤ output.length
      · obtain ⟨o, _, h4, _⟩ := h3 a b; rw [h4]; simp
      · rw [h2 a (by omega)]; simp
    · rw [h1 a]; simp
  · obtain ⟨h1, h2, h3⟩ := C16_bc3_transform_validation m input output t
    by_cases a : input.length % 16 = 0
    · by_cases b : input.length ≤ output.length
      · obtain ⟨o, _, h4, _⟩ := h3 a b; rw [h4]; simp
      · rw [h2 a (by omega)]; simp
    · rw [h1 a]; simp

/-- **C55**, exact: when the safe functions panic in a debug build; if they do not they do what the release build does. -/
theorem C55_debug_exact (m : Machine) (input output : Buf) (s : ColourSettings) (t : Bc3.Settings) :
    (Bc1.transformSafeDebug m input output s = none ↔
      input = [] ∧ s.split = true ∧ ∃ f, m = .x86 f ∧ f.avx512bw = true) ∧
    (Bc1.untransformSafeDebug m input output s = none ↔
      input = [] ∧ s.split = true ∧ ∃ f, m = .x86 f ∧ (f.avx512bw = true ∨ f.avx2 = true ∨ f.sse2 = true)) ∧
    (Bc3.transformSafeDebug m input output t = none ↔
      input = [] ∧ t = ⟨.none, true, false⟩ ∧ ∃ f, m = .x86 f ∧ f.avx512vbmi = true) ∧
    (Bc1.transformSafeDebug m input output s ≠ none →
      Bc1.transformSafeDebug m input output s = Bc1.transformSafe m input output s) ∧
    (Bc1.untransformSafeDebug m input output s ≠ none →
      Bc1.untransformSafeDebug m input output s = Bc1.untransformSafe m input output s) ∧
    (Bc3.transformSafeDebug m input output t ≠ none →
      Bc3.transformSafeDebug m input output t = Bc3.transformSafe m input output t) := by
  obtain ⟨r1, r2, r3⟩ := release_returns m input output s t
  have hnil8 : input.length % 8 = 0 → input.length / 8 = 0 → input = [] := fun _ _ => List.length_eq_zero_iff.1 (by omega)
  have hnil16 : input.length % 16 = 0 → input.length / 16 = 0 → input = [] := fun _ _ => List.length_eq_zero_iff.1 (by omega)
  unfold Bc1.transformSafeDebug Bc1.untransformSafeDebug Bc3.transformSafeDebug
  refine ⟨⟨fun h => ?_, ?_⟩, ⟨fun h => ?_, ?_⟩, ⟨fun h => ?_, ?_⟩, fun h => ?_, fun h => ?_, fun h => ?_⟩
  · split at h
    · rename_i hc
      refine ⟨hnil8 hc.1 hc.2.2.2, ?_⟩
      cases m with
      | x86 f => simpa [Bc1.transformAsserts] using hc.2.2.1
      | other e fr => exact absurd hc.2.2.1 (by simp [Bc1.transformAsserts])
    · exact absurd h r1
  · rintro ⟨rfl, hs, f, rfl, hf⟩
    rw [if_pos (by simp [Bc1.transformAsserts, hs, hf])]
  · split at h
    · rename_i hc
      refine ⟨hnil8 hc.1 hc.2.2.2, ?_⟩
      cases m with
      | x86 f => simpa [Bc1.untransformAsserts, or_assoc] using hc.2.2.1
      | other e fr => exact absurd hc.2.2.1 (by simp [Bc1.untransformAsserts])
    · exact absurd h r2
  · rintro ⟨rfl, hs, f, rfl, hf⟩
    rw [if_pos (by simpa [Bc1.untransformAsserts, hs, or_assoc] using hf)]
  · split at h
    · rename_i hc
      refine ⟨hnil16 hc.1 hc.2.2.2, ?_⟩
      cases m with
      | x86 f =>
        obtain ⟨d, a, c⟩ := t
        have := hc.2.2.1
        simp [Bc3.transformAsserts] at this ⊢
        exact ⟨⟨this.1.2, this.1.1.1, this.1.1.2⟩, this.2⟩
      | other e fr => exact absurd hc.2.2.1 (by simp [Bc3.transformAsserts])
    · exact absurd h r3
  · rintro ⟨rfl, rfl, f, rfl, hf⟩
    rw [if_pos (by simp [Bc3.transformAsserts, hf])]
  · split at h
    · exact absurd rfl h
    · rename_i hc; exact if_neg hc
  · split at h
    · exact absurd rfl h
    · rename_i hc; exact if_neg hc
  · split at h
    · exact absurd rfl h
    · rename_i hc; exact if_neg hc

/-- The loop panics if one of the candidates does and the estimator always answers. -/
private theorem loop_panics {S σ E : Type} {transform : Buf → S → Option Buf} {measure : σ → Buf → σ × Except E Nat}
    (hm : ∀ st out, ∃ n, (measure st out).2 = .ok n) {bad : S} (hbad : ∀ out, transform out bad = none) :
    ∀ (order : List S), bad ∈ order → ∀ (out : Buf) (st : σ) (best : S) (size : Nat) (last : S),
      Auto.loop transform measure order out st best size last = none
  | s :: rest, hmem, out, st, best, size, last => by
    rw [Auto.loop]
    rcases List.mem_cons.1 hmem with rfl | hrest
    · rw [hbad]; rfl
    · cases ht : transform out s with
      | none => rfl
      | some o =>
        obtain ⟨n, hn⟩ := hm st o
        rw [Option.bind_eq_bind, Option.bind_some]
        rcases hq : measure st o with ⟨st', res⟩
        rw [hq] at hn
        dsimp only at hn
        subst hn
        dsimp only
        split
        · exact loop_panics hm hbad rest hrest _ _ _ _ _
        · exact loop_panics hm hbad rest hrest _ _ _ _ _

/-- **C55**, the automatic choice for BC1: on a machine without AVX-512 or for a non-empty input a debug build does what the
release build does, with every estimator. -/
theorem C55_auto_same_partial {σ E : Type} (env : Env) (m : Machine) (est : Estimator σ E) (useAll : Bool) (input output : Buf)
    (st : σ) (h : input ≠ [] ∨ ∀ f, m = .x86 f → f.avx512bw = false) :
    Bc1.transformAutoSafeDebug env m est useAll input output st = Bc1.transformAutoSafe env m est useAll input output st ∧
    ∃ r, Bc1.transformAutoSafeDebug env m est useAll input output st = some r := by
  have e : Bc1.transformAutoSafeDebug env m est useAll input output st =
      Bc1.transformAutoSafe env m est useAll input output st := by
    unfold Bc1.transformAutoSafeDebug Bc1.transformAutoSafe
    split
    · rfl
    · rename_i h8
      split
      · rfl
      · have hf : (fun (out : Buf) (s : ColourSettings) =>
            if Bc1.transformAsserts m s ∧ input.length / 8 = 0 then none
            else Bc1.transformWithSettings m input out input.length s) =
            fun out s => Bc1.transformWithSettings m input out input.length s := by
          funext out s
          apply if_neg
          rintro ⟨ha, hz⟩
          rcases h with h | h
          · exact h (List.length_eq_zero_iff.1 (by omega))
          · cases m with
            | x86 f => simp [Bc1.transformAsserts, h f rfl] at ha
            | other e fr => simp [Bc1.transformAsserts] at ha
        unfold Bc1.transformAutoDebug Bc1.transformAuto
        rw [hf]
  refine ⟨e, ?_⟩
  rw [e]
  obtain ⟨h1, h2, h3⟩ := C16_bc1_auto_validation env m est useAll input output st
  by_cases a : input.length % 8 = 0
  · by_cases b : input.length ≤ output.length
    · obtain ⟨_, _, _, h4, _⟩ := h3 a b; exact ⟨_, h4⟩
    · exact ⟨_, h2 a (by omega)⟩
  · exact ⟨_, h1 a⟩

/-- **C55**, negation for the automatic choice: with AVX-512 the search panics on the empty slice, whatever the estimator
answers, as long as it does not fail. -/
theorem C55_auto_empty_panics {σ E : Type} (env : Env) (f : Features) (hf : f.avx512bw = true) (est : Estimator σ E)
    (useAll : Bool) (output : Buf) (st : σ) (hmax : ∀ st n, ∃ k, (est.maxSize st n).2 = .ok k)
    (hest : ∀ st x comp, ∃ k, (est.estimate st x comp).2 = .ok k) (halloc : ∀ n, env.canAlloc n = true) :
    Bc1.transformAutoSafeDebug env (.x86 f) est useAll [] output st = none := by
  unfold Bc1.transformAutoSafeDebug
  rw [if_neg (by simp), if_neg (by simp)]
  suffices h : Bc1.transformAutoDebug env (.x86 f) est useAll [] output 0 st = none by
    show (Bc1.transformAutoDebug env (.x86 f) est useAll [] output 0 st).bind _ = none
    rw [h]; rfl
  unfold Bc1.transformAutoDebug Auto.prepare
  have body : ∀ (comp : Nat) (st : σ), Auto.search env (Bc1.testOrder useAll) Bc1.defaultSettings
      (fun out s => if Bc1.transformAsserts (.x86 f) s ∧ 0 / 8 = 0 then none
        else Bc1.transformWithSettings (.x86 f) [] out 0 s)
      (Bc1.measure env est 0 comp) output st = none := by
    intro comp st
    unfold Auto.search
    have hbad : Bc1.transformAsserts (.x86 f) ⟨.none, true⟩ ∧ 0 / 8 = 0 := ⟨by simp [Bc1.transformAsserts, hf], rfl⟩
    rw [loop_panics (transform := fun out s => if Bc1.transformAsserts (.x86 f) s ∧ 0 / 8 = 0 then none
        else Bc1.transformWithSettings (.x86 f) [] out 0 s) (measure := Bc1.measure env est 0 comp) (bad := ⟨.none, true⟩)
      (fun st out => hest st _ _) (fun out => if_pos hbad) (Bc1.testOrder useAll) (by cases useAll <;> decide)]
    rfl
  obtain ⟨k, hk⟩ := hmax st (0 / 2)
  rcases hq : est.maxSize st (0 / 2) with ⟨st', res⟩
  rw [hq] at hk
  dsimp only at hk
  subst hk
  dsimp only
  split
  · exact body _ _
  · rw [if_pos (halloc k)]; exact body _ _

/-- **C55**, the automatic choice for BC3. -/
theorem C55_bc3_auto_same_partial {σ E : Type} (env : Env) (m : Machine) (est : Estimator σ E) (useAll : Bool)
    (input output : Buf) (st : σ) (h : input ≠ [] ∨ ∀ f, m = .x86 f → f.avx512vbmi = false) :
    Bc3.transformAutoSafeDebug env m est useAll input output st = Bc3.transformAutoSafe env m est useAll input output st ∧
    ∃ r, Bc3.transformAutoSafeDebug env m est useAll input output st = some r := by
  have e : Bc3.transformAutoSafeDebug env m est useAll input output st =
      Bc3.transformAutoSafe env m est useAll input output st := by
    unfold Bc3.transformAutoSafeDebug Bc3.transformAutoSafe
    split
    · rfl
    · rename_i h8
      split
      · rfl
      · have hf : (fun (out : Buf) (s : Bc3.Settings) =>
            if Bc3.transformAsserts m s ∧ input.length / 16 = 0 then none
            else Bc3.transformWithSettings m input out input.length s) =
            fun out s => Bc3.transformWithSettings m input out input.length s := by
          funext out s
          apply if_neg
          rintro ⟨ha, hz⟩
          rcases h with h | h
          · exact h (List.length_eq_zero_iff.1 (by omega))
          · cases m with
            | x86 f => simp [Bc3.transformAsserts, h f rfl] at ha
            | other e fr => simp [Bc3.transformAsserts] at ha
        unfold Bc3.transformAutoDebug Bc3.transformAuto
        rw [hf]
  refine ⟨e, ?_⟩
  rw [e]
  obtain ⟨h1, h2, h3⟩ := C16_bc3_auto_validation env m est useAll input output st
  by_cases a : input.length % 16 = 0
  · by_cases b : input.length ≤ output.length
    · obtain ⟨_, _, _, h4, _⟩ := h3 a b; exact ⟨_, h4⟩
    · exact ⟨_, h2 a (by omega)⟩
  · exact ⟨_, h1 a⟩

/-- **C55**, negation for the automatic choice of BC3: with AVX-512 VBMI the search panics on the empty slice. -/
theorem C55_bc3_auto_empty_panics {σ E : Type} (env : Env) (f : Features) (hf : f.avx512vbmi = true) (est : Estimator σ E)
    (useAll : Bool) (output : Buf) (st : σ) (hmax : ∀ st n, ∃ k, (est.maxSize st n).2 = .ok k)
    (hest : ∀ st x comp, ∃ k, (est.estimate st x comp).2 = .ok k) (halloc : ∀ n, env.canAlloc n = true) :
    Bc3.transformAutoSafeDebug env (.x86 f) est useAll [] output st = none := by
  unfold Bc3.transformAutoSafeDebug
  rw [if_neg (by simp), if_neg (by simp)]
  suffices h : Bc3.transformAutoDebug env (.x86 f) est useAll [] output 0 st = none by
    show (Bc3.transformAutoDebug env (.x86 f) est useAll [] output 0 st).bind _ = none
    rw [h]; rfl
  unfold Bc3.transformAutoDebug Auto.prepare
  have hmeas : ∀ comp st out, ∃ n, (Bc3.measure env est 0 comp st out).2 = .ok n := by
    intro comp st out
    unfold Bc3.measure
    obtain ⟨k, hk⟩ := hest st (slice out 0 (0 / 16 * 2)) comp
    rcases hq : est.estimate st (slice out 0 (0 / 16 * 2)) comp with ⟨st', res⟩
    rw [hq] at hk
    dsimp only at hk
    subst hk
    dsimp only
    obtain ⟨k', hk'⟩ := hest st' (slice out (0 / 2) (0 / 16 * 4)) comp
    rcases hq' : est.estimate st' (slice out (0 / 2) (0 / 16 * 4)) comp with ⟨st'', res'⟩
    rw [hq'] at hk'
    dsimp only at hk'
    subst hk'
    exact ⟨_, rfl⟩
  have body : ∀ (comp : Nat) (st : σ), Auto.search env (Bc3.testOrder useAll) Bc3.defaultSettings
      (fun out s => if Bc3.transformAsserts (.x86 f) s ∧ 0 / 16 = 0 then none
        else Bc3.transformWithSettings (.x86 f) [] out 0 s)
      (Bc3.measure env est 0 comp) output st = none := by
    intro comp st
    unfold Auto.search
    have hbad : Bc3.transformAsserts (.x86 f) ⟨.none, true, false⟩ ∧ 0 / 16 = 0 :=
      ⟨by simp [Bc3.transformAsserts, hf], rfl⟩
    rw [loop_panics (transform := fun out s => if Bc3.transformAsserts (.x86 f) s ∧ 0 / 16 = 0 then none
        else Bc3.transformWithSettings (.x86 f) [] out 0 s) (measure := Bc3.measure env est 0 comp)
      (bad := ⟨.none, true, false⟩)
      (fun st out => hmeas _ _ _) (fun out => if_pos hbad) (Bc3.testOrder useAll) (by cases useAll <;> decide)]
    rfl
  obtain ⟨k, hk⟩ := hmax st (0 / 4)
  rcases hq : est.maxSize st (0 / 4) with ⟨st', res⟩
  rw [hq] at hk
  dsimp only at hk
  subst hk
  dsimp only
  split
  · exact body _ _
  · rw [if_pos (halloc k)]; exact body _ _

/-- The release build accepts the empty slice that the debug build panics on. -/
example : Bc1.untransformSafe (.x86 ⟨true, true, false, false, false, false, fun _ => 0⟩) [] [] ⟨.v1, true⟩ =
      some ([], .ok ()) ∧
    Bc1.untransformSafeDebug (.x86 ⟨true, true, false, false, false, false, fun _ => 0⟩) [] [] ⟨.v1, true⟩ = none :=
  ⟨rfl, (C55_debug_empty_panics ⟨true, true, false, false, false, false, fun _ => 0⟩ [] .v1).1 rfl⟩

end Dlt.Props
