import Verif.Props.Auto
import Verif.Props.NormTransform
/-!
# C92: what the automatic transforms ask the estimator

`recorded est` is the estimator `est` with a list of all questions put to it.
-/

namespace Dlt

variable {S σ τ E : Type}

/-- A call of the estimator. -/
inductive Question where
  /-- `max_compressed_size(len)` -/
  | maxSize (len : Nat)
  /-- `estimate_compressed_size` for these bytes with a scratch buffer of that size (0: the null pointer) -/
  | estimate (input : Buf) (scratch : Nat)
  deriving DecidableEq

/-- The same estimator, with a list of the questions. -/
def recorded (est : Estimator σ E) : Estimator (σ × List Question) E where
  maxSize := fun (st, log) n => (((est.maxSize st n).1, log ++ [.maxSize n]), (est.maxSize st n).2)
  estimate := fun (st, log) x k => (((est.estimate st x k).1, log ++ [.estimate x k]), (est.estimate st x k).2)

/-- Put these questions to the estimator: its state afterwards and its answers. -/
def replay (est : Estimator σ E) : σ → List Question → σ × List (Except E Nat)
  | st, [] => (st, [])
  | st, .maxSize n :: qs => ((replay est (est.maxSize st n).1 qs).1, (est.maxSize st n).2 :: (replay est (est.maxSize st n).1 qs).2)
  | st, .estimate x k :: qs =>
    ((replay est (est.estimate st x k).1 qs).1, (est.estimate st x k).2 :: (replay est (est.estimate st x k).1 qs).2)

/-! ## Recording changes nothing -/

/-- `f` is a map from the states of one estimator to those of another that does the same. -/
structure Hom (f : τ → σ) (est' : Estimator τ E) (est : Estimator σ E) : Prop where
  maxSize : ∀ st n, est.maxSize (f st) n = (f (est'.maxSize st n).1, (est'.maxSize st n).2)
  estimate : ∀ st x k, est.estimate (f st) x k = (f (est'.estimate st x k).1, (est'.estimate st x k).2)

theorem recorded_hom (est : Estimator σ E) : Hom Prod.fst (recorded est) est := ⟨fun _ _ => rfl, fun _ _ _ => rfl⟩

/-- Map the state in a result. -/
def mapState {α : Type} (f : τ → σ) : Option (Buf × τ × α) → Option (Buf × σ × α) :=
  Option.map fun (o, st, r) => (o, f st, r)

namespace Auto

theorem loop_hom {f : τ → σ} (transform : Buf → S → Option Buf) {m' : τ → Buf → τ × Except E Nat} {m : σ → Buf → σ × Except E Nat}
    (hm : ∀ st x, m (f st) x = (f (m' st x).1, (m' st x).2)) :
    ∀ (order : List S) (out : Buf) (st : τ) (best : S) (bs : Nat) (last : S),
      loop transform m order out (f st) best bs last = mapState f (loop transform m' order out st best bs last)
  | [], _, _, _, _, _ => rfl
  | cur :: rest, out, st, best, bs, last => by
    simp only [loop, Option.bind_eq_bind]
    rcases transform out cur with _ | o
    · rfl
    · simp only [Option.bind_some, hm]
      rcases m' st o with ⟨st', e | n⟩
      · rfl
      · dsimp only
        split
        · exact loop_hom transform hm rest _ _ _ _ _
        · exact loop_hom transform hm rest _ _ _ _ _

theorem search_hom [DecidableEq S] {f : τ → σ} (env : Env) (order : List S) (dflt : S) (transform : Buf → S → Option Buf)
    {m' : τ → Buf → τ × Except E Nat} {m : σ → Buf → σ × Except E Nat}
    (hm : ∀ st x, m (f st) x = (f (m' st x).1, (m' st x).2)) (out : Buf) (st : τ) :
    search env order dflt transform m out (f st) = mapState f (search env order dflt transform m' out st) := by
  unfold search
  rw [loop_hom transform hm]
  rcases loop transform m' order out st dflt env.usizeMax dflt with _ | ⟨o, st', e | ⟨best, last⟩⟩
  · rfl
  · rfl
  · simp only [mapState, Option.map_some, Option.bind_eq_bind, Option.bind_some]
    split
    · rcases transform o best with _ | o' <;> rfl
    · rfl

theorem prepare_hom {f : τ → σ} {est' : Estimator τ E} {est : Estimator σ E} (he : Hom f est' est) (env : Env) (len : Nat)
    (out : Buf) (st : τ) {b' : Nat → τ → Option (Buf × τ × Except (DetermineBestError E) S)}
    {b : Nat → σ → Option (Buf × σ × Except (DetermineBestError E) S)} (hb : ∀ k st, b k (f st) = mapState f (b' k st)) :
    prepare env est len out (f st) b = mapState f (prepare env est' len out st b') := by
  unfold prepare
  rw [he.maxSize]
  rcases est'.maxSize st len with ⟨st', e | k⟩
  · rfl
  · dsimp only
    split
    · exact hb _ _
    · split
      · exact hb _ _
      · rfl

end Auto

theorem Bc1.transformAuto_hom {f : τ → σ} {est' : Estimator τ E} {est : Estimator σ E} (he : Hom f est' est) (env : Env)
    (m : Machine) (useAll : Bool) (inp out : Buf) (len : Nat) (st : τ) :
    Bc1.transformAuto env m est useAll inp out len (f st) = mapState f (Bc1.transformAuto env m est' useAll inp out len st) :=
  Auto.prepare_hom he env _ _ _ fun _ _ => Auto.search_hom env _ _ _ (fun _ _ => he.estimate _ _ _) _ _

theorem Bc2.transformAuto_hom {f : τ → σ} {est' : Estimator τ E} {est : Estimator σ E} (he : Hom f est' est) (env : Env)
    (m : Machine) (useAll : Bool) (inp out : Buf) (len : Nat) (st : τ) :
    Bc2.transformAuto env m est useAll inp out len (f st) = mapState f (Bc2.transformAuto env m est' useAll inp out len st) :=
  Auto.prepare_hom he env _ _ _ fun _ _ => Auto.search_hom env _ _ _ (fun _ _ => he.estimate _ _ _) _ _

theorem Bc3.transformAuto_hom {f : τ → σ} {est' : Estimator τ E} {est : Estimator σ E} (he : Hom f est' est) (env : Env)
    (m : Machine) (useAll : Bool) (inp out : Buf) (len : Nat) (st : τ) :
    Bc3.transformAuto env m est useAll inp out len (f st) = mapState f (Bc3.transformAuto env m est' useAll inp out len st) := by
  refine Auto.prepare_hom he env _ _ _ fun _ _ => Auto.search_hom env _ _ _ (fun st x => ?_) _ _
  simp only [measure, he.estimate]
  rcases est'.estimate st _ _ with ⟨st', e | a⟩
  · rfl
  · dsimp only
    rw [he.estimate]
    rcases est'.estimate st' _ _ with ⟨st'', e | a⟩ <;> rfl

namespace Props

/-! ## The questions -/

/-- A search asks for the size bound of `L` bytes and then for estimates of `inputs` in this order, all with a scratch buffer of the size
that the bound was.  It goes on until the estimator fails; if it does not, until the end (if the scratch buffer can be had). -/
def Dialogue (est : Estimator σ E) (st : σ) (L : Nat) (inputs : List Buf) (st' : σ) (log : List Question)
    (r : Except (DetermineBestError E) S) : Prop :=
  ∃ n k, n ≤ inputs.length ∧ log = .maxSize L :: (inputs.take n).map (.estimate · k) ∧
    (n ≠ 0 → (est.maxSize st L).2 = .ok k) ∧ (replay est st log).1 = st' ∧
    (∀ a ∈ (replay est st log).2.dropLast, a.isOk) ∧
    match r with
    | .ok _ => n = inputs.length ∧ ∀ a ∈ (replay est st log).2, a.isOk
    | .error .allocate => n = 0 ∧ ∀ a ∈ (replay est st log).2, a.isOk
    | .error (.sizeEstimation e) => (replay est st log).2.getLast? = some (.error e)

theorem ask_recorded (est : Estimator σ E) (k : Nat) : ∀ (xs : List Buf) (st : σ) (l : List Question),
    ∃ n st' r, n ≤ xs.length ∧ ask (recorded est) k (st, l) xs = ((st', l ++ (xs.take n).map (.estimate · k)), r) ∧
      (replay est st ((xs.take n).map (.estimate · k))).1 = st' ∧
      match r with
      | .ok _ => n = xs.length ∧ ∀ a ∈ (replay est st ((xs.take n).map (.estimate · k))).2, a.isOk
      | .error e => ∃ pre, (replay est st ((xs.take n).map (.estimate · k))).2 = pre ++ [.error e] ∧ ∀ a ∈ pre, a.isOk
  | [], st, l => ⟨0, st, .ok (), Nat.le_refl _, by simp [ask], rfl, rfl, by simp [replay]⟩
  | x :: xs, st, l => by
    simp only [ask, recorded]
    rcases he : est.estimate st x k with ⟨st1, e | size⟩
    · refine ⟨1, st1, .error e, by simp, by simp, by simp [replay, he], [], by simp [replay, he], by simp⟩
    · obtain ⟨n, st', r, h1, h2, h3, h4⟩ := ask_recorded est k xs st1 (l ++ [.estimate x k])
      refine ⟨n + 1, st', r, by simpa using h1, ?_, by simpa [replay, he] using h3, ?_⟩
      · refine Eq.trans h2 ?_
        simp
      · cases r with
        | ok _ => exact ⟨by simpa using h4.1, by simpa [replay, he, Except.isOk, Except.toBool] using h4.2⟩
        | error e =>
          obtain ⟨pre, h5, h6⟩ := h4
          exact ⟨.ok size :: pre, by simp [replay, he, h5, -List.map_take], by simpa [Except.isOk, Except.toBool] using h6⟩

/-- From what is known about failures (C22) to the questions. -/
theorem dialogue_of {auto : σ × List Question → Option (Buf × (σ × List Question) × Except (DetermineBestError E) S)} (env : Env)
    (est : Estimator σ E) (st : σ) (out : Buf) (L : Nat) (inputs : List Buf)
    (h1 : ∀ st1 e, (recorded est).maxSize (st, []) L = (st1, .error e) → auto (st, []) = some (out, st1, .error (.sizeEstimation e)))
    (h2 : ∀ st1 k st2 e, (recorded est).maxSize (st, []) L = (st1, .ok k) → ScratchOk env k →
      ask (recorded est) k st1 inputs = (st2, .error e) → ∃ out', auto (st, []) = some (out', st2, .error (.sizeEstimation e)))
    (h3 : ∀ st1 k st2, (recorded est).maxSize (st, []) L = (st1, .ok k) → ScratchOk env k →
      ask (recorded est) k st1 inputs = (st2, .ok ()) → ∃ out' s, auto (st, []) = some (out', st2, .ok s))
    (h4 : ∀ st1 k, (recorded est).maxSize (st, []) L = (st1, .ok k) → ¬ ScratchOk env k →
      auto (st, []) = some (out, st1, .error .allocate)) :
    ∃ out' st' log r, auto (st, []) = some (out', (st', log), r) ∧ Dialogue est st L inputs st' log r := by
  rcases hm : est.maxSize st L with ⟨st1, e | k⟩
  · refine ⟨_, _, _, _, h1 (st1, [.maxSize L]) e (by simp [recorded, hm]), 0, 0, Nat.zero_le _, rfl, (fun h => (h rfl).elim), ?_⟩
    simp [replay, hm]
  · have hm' : (recorded est).maxSize (st, []) L = ((st1, [.maxSize L]), .ok k) := by simp [recorded, hm]
    by_cases hk : ScratchOk env k
    · obtain ⟨n, st', r, g1, g2, g3, g4⟩ := ask_recorded est k inputs st1 [.maxSize L]
      cases r with
      | ok u =>
        obtain ⟨out', s, g5⟩ := h3 _ _ _ hm' hk g2
        refine ⟨_, _, _, _, g5, n, k, g1, rfl, fun _ => by rw [hm], by simpa [replay, hm] using g3, ?_, g4.1, ?_⟩
        · intro a ha
          have := List.mem_of_mem_dropLast ha
          simp only [List.cons_append, List.nil_append, replay, hm, List.mem_cons] at this
          rcases this with rfl | h
          · rfl
          · exact g4.2 a h
        · simpa [replay, hm, Except.isOk, Except.toBool] using g4.2
      | error e =>
        obtain ⟨out', g5⟩ := h2 _ _ _ _ hm' hk g2
        obtain ⟨pre, g6, g7⟩ := g4
        have hr : (replay est st ([.maxSize L] ++ (inputs.take n).map (.estimate · k))).2 = (.ok k :: pre) ++ [.error e] := by
          simp [replay, hm, g6, -List.map_take]
        refine ⟨_, _, _, _, g5, n, k, g1, rfl, fun _ => by rw [hm], by simpa [replay, hm] using g3, ?_, ?_⟩
        · rw [hr, List.dropLast_concat]
          intro a ha
          rcases List.mem_cons.1 ha with rfl | h
          · rfl
          · exact g7 a h
        · show _ = _
          rw [hr, List.getLast?_concat]
    · refine ⟨_, _, _, _, h4 _ _ hm' hk, 0, 0, Nat.zero_le _, rfl, (fun h => (h rfl).elim), ?_⟩
      simp [replay, hm, Except.isOk, Except.toBool]

/-- **C92**, BC1: the questions of the automatic transform: one size bound for half the data, then one estimate for each candidate of exactly that
many bytes. -/
theorem C92_bc1 (env : Env) (m : Machine) (est : Estimator σ E) (useAll : Bool) (data out : Buf) (st : σ)
    (hB : data.length % 8 = 0) (ho : data.length ≤ out.length) :
    ∃ out' st' log r inputs,
      Bc1.transformAuto env m (recorded est) useAll data out data.length (st, []) = some (out', (st', log), r) ∧
      Bc1.transformAuto env m est useAll data out data.length st = some (out', st', r) ∧
      inputs = (Bc1.testOrder useAll).flatMap (shown1 m data out) ∧ inputs.length = (if useAll then 8 else 4) ∧
      (∀ x ∈ inputs, x.length = data.length / 2) ∧
      Dialogue est st (data.length / 2) inputs st' log r := by
  obtain ⟨h1, h2, h3, h4⟩ := C22_bc1_estimator_failures env m (recorded est) useAll data out (st, []) hB ho
  obtain ⟨out', st', log, r, e, hd⟩ := dialogue_of env est st out _ _ h1 h2 h3 h4
  refine ⟨out', st', log, r, _, e, ?_, rfl, ?_, ?_, hd⟩
  · have := Bc1.transformAuto_hom (recorded_hom est) env m useAll data out data.length (st, [])
    rw [e] at this
    exact this
  · cases useAll <;> rfl
  · intro x hx
    obtain ⟨s, _, hs⟩ := List.mem_flatMap.1 hx
    rw [shown1_eq m hB ho] at hs
    obtain rfl := List.mem_singleton.1 hs
    exact part1_length m hB s

/-- **C92**, BC2: as for BC1, with a quarter of the data. -/
theorem C92_bc2 (env : Env) (m : Machine) (est : Estimator σ E) (useAll : Bool) (data out : Buf) (st : σ)
    (hB : data.length % 16 = 0) (ho : data.length ≤ out.length) :
    ∃ out' st' log r inputs,
      Bc2.transformAuto env m (recorded est) useAll data out data.length (st, []) = some (out', (st', log), r) ∧
      Bc2.transformAuto env m est useAll data out data.length st = some (out', st', r) ∧
      inputs = (Bc2.testOrder useAll).flatMap (shown2 m data out) ∧ inputs.length = (if useAll then 8 else 4) ∧
      (∀ x ∈ inputs, x.length = data.length / 4) ∧
      Dialogue est st (data.length / 4) inputs st' log r := by
  obtain ⟨h1, h2, h3, h4⟩ := C22_bc2_estimator_failures env m (recorded est) useAll data out (st, []) hB ho
  obtain ⟨out', st', log, r, e, hd⟩ := dialogue_of env est st out _ _ h1 h2 h3 h4
  refine ⟨out', st', log, r, _, e, ?_, rfl, ?_, ?_, hd⟩
  · have := Bc2.transformAuto_hom (recorded_hom est) env m useAll data out data.length (st, [])
    rw [e] at this
    exact this
  · cases useAll <;> rfl
  · intro x hx
    obtain ⟨s, _, hs⟩ := List.mem_flatMap.1 hx
    rw [shown2_eq m hB ho] at hs
    obtain rfl := List.mem_singleton.1 hs
    exact part2_length m hB s

/-- The lengths of the two questions for one candidate of BC3. -/
theorem shown3_lengths (m : Machine) {data out : Buf} (hB : data.length % 16 = 0) (ho : data.length ≤ out.length) (s : Bc3.Settings) :
    (shown3 m data out s).map List.length = [data.length / 8, data.length / 4] := by
  have h := ((Bc3.transform_impl m s) data data hB (Nat.le_refl _)).1
  rw [shown3_eq m hB ho]
  simp only [List.map_cons, List.map_nil]
  rw [slice_length_of_le (by rw [List.length_append]; omega), slice_length_of_le (by rw [List.length_append]; omega)]
  congr 1
  · omega
  · congr 1; omega

/-- **C92**, BC3: one size bound for a quarter of the data, then for each candidate an estimate of an eighth and one of a quarter of the data. -/
theorem C92_bc3 (env : Env) (m : Machine) (est : Estimator σ E) (useAll : Bool) (data out : Buf) (st : σ)
    (hB : data.length % 16 = 0) (ho : data.length ≤ out.length) :
    ∃ out' st' log r inputs,
      Bc3.transformAuto env m (recorded est) useAll data out data.length (st, []) = some (out', (st', log), r) ∧
      Bc3.transformAuto env m est useAll data out data.length st = some (out', st', r) ∧
      inputs = (Bc3.testOrder useAll).flatMap (shown3 m data out) ∧
      inputs.map List.length = (List.replicate (if useAll then 16 else 8) [data.length / 8, data.length / 4]).flatten ∧
      Dialogue est st (data.length / 4) inputs st' log r := by
  obtain ⟨h1, h2, h3, h4⟩ := C22_bc3_estimator_failures env m (recorded est) useAll data out (st, []) hB ho
  obtain ⟨out', st', log, r, e, hd⟩ := dialogue_of env est st out _ _ h1 h2 h3 h4
  refine ⟨out', st', log, r, _, e, ?_, rfl, ?_, hd⟩
  · have := Bc3.transformAuto_hom (recorded_hom est) env m useAll data out data.length (st, [])
    rw [e] at this
    exact this
  · rw [List.map_flatMap]
    simp only [shown3_lengths m hB ho]
    cases useAll <;> rfl

/-! ## With normalization -/

end Props

open Spec Norm Norm.Bc1 in
theorem testLoop_hom {f : τ → σ} {est' : Estimator τ E} {est : Estimator σ E} (he : Hom f est' est) (m : Machine) (len comp : Nat) :
    ∀ (cs : List (Details × Buf)) (work : Buf) (st : τ) (best : Details) (bs : Nat),
      testLoop m est len comp cs work (f st) best bs = mapState f (testLoop m est' len comp cs work st best bs)
  | [], _, _, _, _ => rfl
  | (cur, input) :: rest, work, st, best, bs => by
    simp only [testLoop, Option.bind_eq_bind]
    rcases prepareVariant m input work len cur with _ | w
    · rfl
    · simp only [Option.bind_some, he.estimate]
      rcases est'.estimate st _ comp with ⟨st', e | n⟩
      · exact testLoop_hom he m len comp rest _ _ _ _
      · dsimp only
        split
        · exact testLoop_hom he m len comp rest _ _ _ _
        · exact testLoop_hom he m len comp rest _ _ _ _

open Spec Norm Norm.Bc1 in
theorem autoBody_hom {f : τ → σ} {est' : Estimator τ E} {est : Estimator σ E} (he : Hom f est' est) (h : Heap) (m : Machine)
    (useAll : Bool) (inp out : Buf) (len comp : Nat) (st : τ) :
    autoBody h m est useAll inp out len comp (f st) = mapState f (autoBody h m est' useAll inp out len comp st) := by
  unfold autoBody
  simp only [Option.bind_eq_bind]
  rcases allModes (.separate inp) _ len with _ | ⟨bufs, any⟩
  · rfl
  simp only [Option.bind_some]
  cases any
  · rw [if_neg Bool.false_ne_true, if_neg Bool.false_ne_true, Dlt.Bc1.transformAuto_hom he]
    rcases Bc1.transformAuto _ m est' useAll inp out len st with _ | ⟨o, s, r⟩ <;> rfl
  · generalize (h.canAlloc 4 len && h.canAlloc 5 len && h.canAlloc 6 len) = c
    generalize h.canAlloc 7 (len / 2) = c'
    cases c
    · rfl
    · simp only [if_true]
      rcases bufs[0]? with _ | b0
      · rfl
      rcases bufs[1]? with _ | b1
      · rfl
      rcases bufs[2]? with _ | b2
      · rfl
      simp only [Option.bind_some]
      rcases Dlt.Bc1.stdTransform m b0 _ len with _ | s0
      · rfl
      rcases Dlt.Bc1.stdTransform m b1 _ len with _ | s1
      · rfl
      rcases Dlt.Bc1.stdTransform m b2 _ len with _ | s2
      · rfl
      simp only [Option.bind_some]
      cases c'
      · rfl
      · simp only [if_true]
        rw [testLoop_hom he]
        rcases testLoop m est' len comp _ _ st _ _ with _ | ⟨w, s, best⟩
        · rfl
        · simp only [mapState, Option.map_some, Option.bind_some]
          rcases transformNormalize m inp out w len best with _ | ⟨o, _⟩ <;> rfl

open Spec Norm Norm.Bc1 in
theorem autoNormalize_hom {f : τ → σ} {est' : Estimator τ E} {est : Estimator σ E} (he : Hom f est' est) (h : Heap) (m : Machine)
    (useAll : Bool) (inp out : Buf) (len : Nat) (st : τ) :
    autoNormalize h m est useAll inp out len (f st) = mapState f (autoNormalize h m est' useAll inp out len st) := by
  unfold autoNormalize
  split
  · rw [he.maxSize]
    rcases est'.maxSize st (len / 2) with ⟨st', e | k⟩
    · rfl
    · dsimp only
      split
      · exact autoBody_hom he h m useAll inp out len _ _
      · split
        · exact autoBody_hom he h m useAll inp out len _ _
        · rfl
  · rfl

/-- Questions that have been put before. -/
theorem recorded_shift (est : Estimator σ E) (l : List Question) :
    Hom (fun s : σ × List Question => (s.1, l ++ s.2)) (recorded est) (recorded est) :=
  ⟨fun _ _ => by simp [recorded], fun _ _ _ => by simp [recorded]⟩

namespace Props

open Spec Norm Norm.Bc1 in
theorem testLoop_log (m : Machine) (est : Estimator σ E) {n : Nat} (comp : Nat) :
    ∀ (cs : List (Details × Buf)) (work : Buf) (st : σ) (l : List Question) (best : Details) (bs : Nat),
      (∀ c ∈ cs, ∃ data rest : Buf, data.length = n * 8 ∧ c.2 = sect n 0 4 (block 8 data) ++ rest) →
      n * 4 ≤ work.length →
      ∃ work' st' best', ∃ inputs : List Buf, testLoop m (recorded est) (n * 8) comp cs work (st, l) best bs =
          some (work', (st', l ++ inputs.map (.estimate · comp)), best') ∧ n * 4 ≤ work'.length ∧
        inputs.length = cs.length ∧ (∀ x ∈ inputs, x.length = n * 4) ∧ (replay est st (inputs.map (.estimate · comp))).1 = st'
  | [], work, st, l, best, _, _, hw => ⟨work, st, best, [], by simp [testLoop], hw, rfl, by simp, rfl⟩
  | (d, inp) :: cs, work, st, l, best, bs, hc, hw => by
    obtain ⟨data, rest, hd, rfl⟩ := hc (d, inp) (by simp)
    have hl : (slice (Dlt.Bc1.encode m.endian d.untransformSettings data) 0 (n * 4)).length = n * 4 := by
      apply slice_length_of_le
      rw [Dlt.Bc1.encode_length _ _ (by omega)]; omega
    have hp := prepareVariant_eq m (rest := rest) d hd hw
    have hw' : n * 4 ≤ (slice (Dlt.Bc1.encode m.endian d.untransformSettings data) 0 (n * 4) ++ work.drop (n * 4)).length := by
      rw [List.length_append]; omega
    have hsl : slice (slice (Dlt.Bc1.encode m.endian d.untransformSettings data) 0 (n * 4) ++ work.drop (n * 4)) 0 (n * 4) =
        slice (Dlt.Bc1.encode m.endian d.untransformSettings data) 0 (n * 4) := by
      rw [slice_append_left _ _ _ _ (by omega), slice_all hl]
    have q2 : n * 8 / 2 = n * 4 := by omega
    have ih := fun st best bs => testLoop_log m est comp cs _ st (l ++ [.estimate
      (slice (Dlt.Bc1.encode m.endian d.untransformSettings data) 0 (n * 4)) comp]) best bs (fun c h => hc c (by simp [h])) hw'
    simp only [testLoop]
    rw [hp]
    simp only [Option.bind_eq_bind, Option.bind_some, q2, hsl]
    have close : ∀ best bs, ∃ work' st' best', ∃ inputs : List Buf,
        testLoop m (recorded est) (n * 8) comp cs
          (slice (Dlt.Bc1.encode m.endian d.untransformSettings data) 0 (n * 4) ++ work.drop (n * 4))
          ((est.estimate st (slice (Dlt.Bc1.encode m.endian d.untransformSettings data) 0 (n * 4)) comp).1,
            l ++ [.estimate (slice (Dlt.Bc1.encode m.endian d.untransformSettings data) 0 (n * 4)) comp]) best bs =
          some (work', (st', l ++ inputs.map (.estimate · comp)), best') ∧ n * 4 ≤ work'.length ∧
        inputs.length = ((d, sect n 0 4 (block 8 data) ++ rest) :: cs).length ∧ (∀ x ∈ inputs, x.length = n * 4) ∧
        (replay est st (inputs.map (.estimate · comp))).1 = st' := by
      intro best bs
      obtain ⟨w, s, b, inputs, h1, h2, h3, h4, h5⟩ := ih
        (est.estimate st (slice (Dlt.Bc1.encode m.endian d.untransformSettings data) 0 (n * 4)) comp).1 best bs
      refine ⟨w, s, b, slice (Dlt.Bc1.encode m.endian d.untransformSettings data) 0 (n * 4) :: inputs, ?_, h2, by simp [h3], ?_, ?_⟩
      · rw [h1]; simp
      · intro x hx
        rcases List.mem_cons.1 hx with rfl | hx
        · exact hl
        · exact h4 x hx
      · simpa [replay] using h5
    have hr : (recorded est).estimate (st, l) (slice (Dlt.Bc1.encode m.endian d.untransformSettings data) 0 (n * 4)) comp =
        (((est.estimate st (slice (Dlt.Bc1.encode m.endian d.untransformSettings data) 0 (n * 4)) comp).1,
            l ++ [.estimate (slice (Dlt.Bc1.encode m.endian d.untransformSettings data) 0 (n * 4)) comp]),
          (est.estimate st (slice (Dlt.Bc1.encode m.endian d.untransformSettings data) 0 (n * 4)) comp).2) := rfl
    rw [hr]
    rcases (est.estimate st (slice (Dlt.Bc1.encode m.endian d.untransformSettings data) 0 (n * 4)) comp).2 with e | size
    · exact close best bs
    · dsimp only
      split
      · exact close _ _
      · exact close _ _

/-- The questions of the automatic transform with normalization if some block can be normalized and there is memory: a size bound and then
three estimates for each settings candidate, whether the estimator fails or not. -/
def NormDialogue (est : Estimator σ E) (st : σ) (L count : Nat) (st' : σ) (log : List Question)
    (r : Except (DetermineBestError E) Norm.Bc1.Details) : Prop :=
  ∃ k, ∃ inputs : List Buf, (est.maxSize st L).2 = .ok k ∧ log = .maxSize L :: inputs.map (.estimate · k) ∧
    inputs.length = 3 * count ∧ (∀ x ∈ inputs, x.length = L) ∧ (replay est st log).1 = st' ∧ ∃ d, r = .ok d

open Spec Norm Norm.Bc1 in
/-- **C92**, BC1 with normalization: no question; or the size bound alone, after which it gives up; or, if some block can be
normalized, the size bound and three estimates for each candidate; or, if none can, the size bound and then all questions of `transform_bc1_auto`. -/
theorem C92_bc1_normalize (h : Heap) (m : Machine) (est : Estimator σ E) (useAll : Bool) (data out : Buf) (st : σ)
    (hB : data.length % 8 = 0) (ho : data.length ≤ out.length) :
    ∃ out' st' log r,
      autoNormalize h m (recorded est) useAll data out data.length (st, []) = some (out', (st', log), r) ∧
      autoNormalize h m est useAll data out data.length st = some (out', st', r) ∧
      ((log = [] ∧ r = .error .allocate) ∨
       (log = [.maxSize (data.length / 2)] ∧ ((∃ e, (est.maxSize st (data.length / 2)).2 = .error e ∧ r = .error (.sizeEstimation e)) ∨
          r = .error .allocate)) ∨
       NormDialogue est st (data.length / 2) (if useAll then 8 else 4) st' log r ∨
       ∃ log' r', log = .maxSize (data.length / 2) :: log' ∧ r = Except.map (fun s : ColourSettings => ⟨.none, s.decorr, s.split⟩) r' ∧
         Dialogue est (est.maxSize st (data.length / 2)).1 (data.length / 2) ((Dlt.Bc1.testOrder useAll).flatMap (shown1 m data out)) st'
           log' r') := by
  have plain : ∀ {out' st' log r}, autoNormalize h m (recorded est) useAll data out data.length (st, []) = some (out', (st', log), r) →
      autoNormalize h m est useAll data out data.length st = some (out', st', r) := by
    intro out' st' log r e
    have := autoNormalize_hom (recorded_hom est) h m useAll data out data.length (st, [])
    rw [e] at this
    exact this
  suffices ∃ out' st' log r, autoNormalize h m (recorded est) useAll data out data.length (st, []) = some (out', (st', log), r) ∧
      ((log = [] ∧ r = .error .allocate) ∨
       (log = [.maxSize (data.length / 2)] ∧ ((∃ e, (est.maxSize st (data.length / 2)).2 = .error e ∧ r = .error (.sizeEstimation e)) ∨
          r = .error .allocate)) ∨
       NormDialogue est st (data.length / 2) (if useAll then 8 else 4) st' log r ∨
       ∃ log' r', log = .maxSize (data.length / 2) :: log' ∧ r = Except.map (fun s : ColourSettings => ⟨.none, s.decorr, s.split⟩) r' ∧
         Dialogue est (est.maxSize st (data.length / 2)).1 (data.length / 2) ((Dlt.Bc1.testOrder useAll).flatMap (shown1 m data out)) st'
           log' r') by
    obtain ⟨out', st', log, r, h1, h2⟩ := this
    exact ⟨out', st', log, r, h1, plain h1, h2⟩
  obtain ⟨n, hd⟩ : ∃ n, data.length = n * 8 := ⟨data.length / 8, by omega⟩
  have body : ∀ k, (est.maxSize st (data.length / 2)).2 = .ok k →
      ∃ out' st' log r, autoBody h m (recorded est) useAll data out data.length k
          ((est.maxSize st (data.length / 2)).1, [.maxSize (data.length / 2)]) = some (out', (st', log), r) ∧
      ((log = [.maxSize (data.length / 2)] ∧ r = .error .allocate) ∨
       NormDialogue est st (data.length / 2) (if useAll then 8 else 4) st' log r ∨
       ∃ log' r', log = .maxSize (data.length / 2) :: log' ∧ r = Except.map (fun s : ColourSettings => ⟨.none, s.decorr, s.split⟩) r' ∧
         Dialogue est (est.maxSize st (data.length / 2)).1 (data.length / 2) ((Dlt.Bc1.testOrder useAll).flatMap (shown1 m data out)) st'
           log' r') := by
    intro k hk
    unfold autoBody
    rw [hd, allModes_fresh h hd, ← hd]
    simp only [Option.bind_eq_bind, Option.bind_some]
    cases hany : someNorm data n
    · simp only [Bool.false_eq_true, if_false]
      obtain ⟨o, s, log, r, _, e, _, rfl, _, _, hdia⟩ := C92_bc1 ⟨h.canAlloc 8, h.usizeMax⟩ m est useAll data out
        (est.maxSize st (data.length / 2)).1 hB ho
      have := Dlt.Bc1.transformAuto_hom (recorded_shift est [.maxSize (data.length / 2)]) ⟨h.canAlloc 8, h.usizeMax⟩ m useAll data out
        data.length ((est.maxSize st (data.length / 2)).1, [])
      rw [e] at this
      simp only [List.append_nil] at this
      rw [this]
      exact ⟨_, _, _, _, rfl, .inr (.inr ⟨log, r, rfl, rfl, hdia⟩)⟩
    · simp only [if_true, List.getElem?_cons_zero, List.getElem?_cons_succ, Option.bind_some]
      split
      · obtain ⟨s0, s1, s2, e0, e1, e2, hfst, hc⟩ := candidates_form m useAll h hd
        rw [hd, e0, e1, e2]
        simp only [Option.bind_some]
        split
        · obtain ⟨w, s, best, inputs, h1, h2, h3, h4, h5⟩ := testLoop_log m est k (candidates useAll [s0, s1, s2]) (h.buf 7 (n * 8 / 2))
            (est.maxSize st (n * 8 / 2)).1 [.maxSize (n * 8 / 2)] .default h.usizeMax (n := n)
            (fun c hcm => by
              obtain ⟨x, rest, _, hx⟩ := hc c hcm
              exact ⟨_, rest, tested_length hd x, hx⟩)
            (by rw [Heap.buf_length]; omega)
          rw [h1]
          simp only [Option.bind_some]
          obtain ⟨w', _, e⟩ := transformNormalize_eq m best hd (by omega : n * 8 ≤ out.length) h2
          rw [e]
          rw [hd] at hk
          refine ⟨_, _, _, _, rfl, .inr (.inl ⟨k, inputs, hk, rfl, ?_, fun x hx => by rw [h4 x hx]; omega, h5, best, rfl⟩)⟩
          rw [h3, ← List.length_map (f := Prod.fst), hfst]
          cases useAll <;> rfl
        · exact ⟨_, _, _, _, rfl, .inl ⟨rfl, rfl⟩⟩
      · exact ⟨_, _, _, _, rfl, .inl ⟨rfl, rfl⟩⟩
  unfold autoNormalize
  split
  · rcases hm : est.maxSize st (data.length / 2) with ⟨st1, e | k⟩
    · have hm' : (recorded est).maxSize (st, []) (data.length / 2) = ((st1, [.maxSize (data.length / 2)]), .error e) := by
        simp [recorded, hm]
      rw [hm']
      exact ⟨_, _, _, _, rfl, .inr (.inl ⟨rfl, .inl ⟨e, rfl, rfl⟩⟩)⟩
    · have hm' : (recorded est).maxSize (st, []) (data.length / 2) = ((st1, [.maxSize (data.length / 2)]), .ok k) := by
        simp [recorded, hm]
      rw [hm']
      obtain ⟨o, s, log, r, h1, h2⟩ := body k (by rw [hm])
      rw [hm] at h1 h2
      dsimp only at h1 h2 ⊢
      have h3 : (log = [] ∧ r = .error .allocate) ∨
       (log = [.maxSize (data.length / 2)] ∧ ((∃ e, (Except.ok k : Except E Nat) = .error e ∧ r = .error (.sizeEstimation e)) ∨
          r = .error .allocate)) ∨
       NormDialogue est st (data.length / 2) (if useAll then 8 else 4) s log r ∨
       ∃ log' r', log = .maxSize (data.length / 2) :: log' ∧ r = Except.map (fun s : ColourSettings => ⟨.none, s.decorr, s.split⟩) r' ∧
         Dialogue est st1 (data.length / 2) ((Dlt.Bc1.testOrder useAll).flatMap (shown1 m data out)) s log' r' := by
        rcases h2 with ⟨a, b⟩ | h2 | h2
        · exact .inr (.inl ⟨a, .inr b⟩)
        · exact .inr (.inr (.inl h2))
        · exact .inr (.inr (.inr h2))
      split
      · rename_i h0
        subst h0
        exact ⟨_, _, _, _, h1, h3⟩
      · split
        · exact ⟨_, _, _, _, h1, h3⟩
        · exact ⟨_, _, _, _, rfl, .inr (.inl ⟨rfl, .inr rfl⟩)⟩
  · exact ⟨_, _, _, _, rfl, .inl ⟨rfl, rfl⟩⟩

/-! ## The documentation -/

/-- An estimator that needs no scratch buffer, as the one of the crate dxt-lossless-transform-ltu. -/
def noScratch : Estimator Unit Unit where
  maxSize st _ := (st, .ok 0)
  estimate st x _ := (st, .ok x.length)

/-- **C92**, the documentation: the trait promises that the scratch buffer is never null and that all inputs in a batch have the same length
(api-common/src/estimate/mod.rs:45, 53).  The first two estimates of one BC3 block have null pointers and 2 and 4 bytes. -/
theorem C92_bc3_documentation_violated :
    ((Bc3.transformAuto ⟨fun _ => true, 2 ^ 64 - 1⟩ (.other .little fun _ => 0) (recorded noScratch) false
      [1, 2, 3, 4, 5, 6, 7, 8, 9, 10, 11, 12, 13, 14, 15, 16] (List.replicate 16 0) 16 ((), [])).map fun r => (r.2.1.2.take 3).map fun
        | .maxSize n => (none, n)
        | .estimate x k => (some x.length, k)) =
    some [(none, 4), (some 2, 0), (some 4, 0)] := by
  decide +kernel

/-- Non-vacuity: one BC1 block, five questions in all. -/
example : ((Bc1.transformAuto ⟨fun _ => true, 2 ^ 64 - 1⟩ (.other .little fun _ => 0) (recorded noScratch) false
      [1, 2, 3, 4, 5, 6, 7, 8] (List.replicate 8 0) 8 ((), [])).map fun r => (r.2.1.2.length, r.2.1.2.take 2)) =
    some (5, [.maxSize 4, .estimate [1, 2, 3, 4] 0]) := by
  decide +kernel

end Props
end Dlt
