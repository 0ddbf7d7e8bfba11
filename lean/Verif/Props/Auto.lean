import Verif.Lemmas.Auto
/-!
# C17, C18, C19, C20, C21, C22: automatic choice of settings

`transformAuto env m est useAll data out len st` runs the search with the estimator `est` in state `st`
and yields the output buffer, the estimator's state and the `Result`.
-/

namespace Dlt.Props

variable {σ E : Type}

/-- The estimator's scratch buffer can be had: it asks for `k` bytes, and either `k = 0` or the
allocation succeeds. -/
def ScratchOk (env : Env) (k : Nat) : Prop := k = 0 ∨ env.canAlloc k = true

theorem slice_length_le (b : Buf) (i n : Nat) : (slice b i n).length ≤ n := by
  unfold slice; simp

/-- `s` is the first candidate of least cost in `order`. -/
def FirstLeast {S : Type} (cost : S → Nat) (order : List S) (s : S) : Prop :=
  ∃ pre post, order = pre ++ s :: post ∧ (∀ x ∈ pre, cost s < cost x) ∧ ∀ x ∈ post, cost s ≤ cost x

/-- Put questions to an estimator one after another, until it fails. -/
def ask (est : Estimator σ E) (scratch : Nat) : σ → List Buf → σ × Except E Unit
  | st, [] => (st, .ok ())
  | st, x :: xs =>
    match est.estimate st x scratch with
    | (st, .error e) => (st, .error e)
    | (st, .ok _) => ask est scratch st xs

theorem ask_append (est : Estimator σ E) (c : Nat) : ∀ (xs ys : List Buf) (st : σ),
    ask est c st (xs ++ ys) = match ask est c st xs with
      | (st, .error e) => (st, .error e)
      | (st, .ok _) => ask est c st ys
  | [], ys, st => rfl
  | x :: xs, ys, st => by
    simp only [List.cons_append, ask]
    cases est.estimate st x c with
    | mk st1 r =>
      cases r with
      | error e => rfl
      | ok n => exact ask_append est c xs ys st1

/-- Forget the sizes. -/
def forget {α : Type} : σ × Except E α → σ × Except E Unit
  | (st, .error e) => (st, .error e)
  | (st, .ok _) => (st, .ok ())

theorem ask_answers {S : Type} (est : Estimator σ E) (c : Nat) {measure : σ → Buf → σ × Except E Nat}
    {T : S → Buf} {ins : S → List Buf} (hm : ∀ st s, ask est c st (ins s) = forget (measure st (T s))) :
    ∀ (order : List S) (st : σ), ask est c st (order.flatMap ins) = forget (Auto.answers measure T st order)
  | [], st => rfl
  | s :: rest, st => by
    rw [List.flatMap_cons, ask_append, hm]
    simp only [Auto.answers]
    cases measure st (T s) with
    | mk st1 r =>
      cases r with
      | error e => rfl
      | ok n =>
        simp only [forget]
        rw [ask_answers est c hm rest st1]
        cases Auto.answers measure T st1 rest with
        | mk st2 r2 => cases r2 <;> rfl

/-! ## BC1 -/

/-- What the estimator is shown for candidate `s`: the colour half of the manual transform. -/
def shown1 (m : Machine) (data out : Buf) (s : ColourSettings) : List Buf :=
  let t := (Bc1.transformWithSettings m data out data.length s).getD []
  [slice t 0 (data.length / 2)]

theorem runs1 (m : Machine) {data out : Buf} (hB : data.length % 8 = 0) (ho : data.length ≤ out.length) :
    Auto.Runs (fun o => o.length = out.length ∧ o.drop data.length = out.drop data.length)
      (fun o s => Bc1.transformWithSettings m data o data.length s)
      (fun s => Bc1.encode m.endian s data ++ out.drop data.length) :=
  Auto.runs_of_implements (Bc1.transform_impl m) hB ho

/-- **C17.** Whatever the estimator answers, the automatic transform does not fail in any other way than by
returning an error, and if it returns settings `s`, the buffer holds exactly the manual transform with `s`,
so that untransforming with `s` gives back the data. -/
theorem C17_bc1_auto_reports_used (env : Env) (m : Machine) (est : Estimator σ E) (useAll : Bool)
    (data out : Buf) (st : σ) (hB : data.length % 8 = 0) (ho : data.length ≤ out.length) :
    ∃ out' st' r, Bc1.transformAuto env m est useAll data out data.length st = some (out', st', r) ∧
      out'.length = out.length ∧ out'.drop data.length = out.drop data.length ∧
      ∀ s, r = .ok s →
        Bc1.transformWithSettings m data out data.length s = some out' ∧
        ∀ m' : Machine, m'.endian = m.endian → ∀ buf : Buf, data.length ≤ buf.length →
          ∃ u, Bc1.untransformWithSettings m' (out'.take data.length) buf data.length s = some u ∧
            u.take data.length = data := by
  have H := runs1 m hB ho
  have hP : (fun o : Buf => o.length = out.length ∧ o.drop data.length = out.drop data.length) out := ⟨rfl, rfl⟩
  have body : ∀ comp st1, ∃ out' st' r, Auto.search env (Bc1.testOrder useAll) Bc1.defaultSettings
      (fun out s => Bc1.transformWithSettings m data out data.length s)
      (Bc1.measure env est data.length comp) out st1 = some (out', st', r) ∧
      (out'.length = out.length ∧ out'.drop data.length = out.drop data.length) ∧
      (∀ s, r = .ok s → out' = Bc1.encode m.endian s data ++ out.drop data.length) := fun comp st1 =>
    Auto.search_total H _ env st1 (by cases useAll <;> simp [Bc1.testOrder, Bc1.fastOrder, Bc1.fullOrder]) hP
  have fin : ∀ {out' : Buf} {s : ColourSettings}, out' = Bc1.encode m.endian s data ++ out.drop data.length →
      Bc1.transformWithSettings m data out data.length s = some out' ∧
        ∀ m' : Machine, m'.endian = m.endian → ∀ buf : Buf, data.length ≤ buf.length →
          ∃ u, Bc1.untransformWithSettings m' (out'.take data.length) buf data.length s = some u ∧
            u.take data.length = data := by
    intro out' s hs
    have e1 := H.eq out s hP
    refine ⟨by rw [hs]; exact e1, fun m' hm' buf hb => ?_⟩
    obtain ⟨t, u, h1, h2, h3⟩ := (Bc1.transform_impl m s).roundtrip (Bc1.untransform_impl m' s)
      (fun d h => by rw [hm']; exact Bc1.decode_encode _ s d h) hB ho hb
    rw [e1, Option.some.injEq] at h1
    rw [hs, h1]
    exact ⟨u, h2, h3⟩
  unfold Bc1.transformAuto Auto.prepare
  cases hmx : est.maxSize st (data.length / 2) with
  | mk st1 r =>
    cases r with
    | error e => exact ⟨_, _, _, rfl, rfl, rfl, fun s hs => by simp at hs⟩
    | ok k =>
      simp only
      split
      · obtain ⟨o, s', r, h1, h2, h3⟩ := body 0 st1
        exact ⟨o, s', r, h1, h2.1, h2.2, fun s hs => fin (h3 s hs)⟩
      · split
        · obtain ⟨o, s', r, h1, h2, h3⟩ := body k st1
          exact ⟨o, s', r, h1, h2.1, h2.2, fun s hs => fin (h3 s hs)⟩
        · exact ⟨_, _, _, rfl, rfl, rfl, fun s hs => by simp at hs⟩

theorem auto_eq1 (env : Env) (m : Machine) (est : Estimator σ E) (useAll : Bool) (data out : Buf) {st st1 : σ}
    {k : Nat} (hmax : est.maxSize st (data.length / 2) = (st1, .ok k)) (hk : ScratchOk env k) :
    Bc1.transformAuto env m est useAll data out data.length st =
      Auto.search env (Bc1.testOrder useAll) Bc1.defaultSettings
        (fun out s => Bc1.transformWithSettings m data out data.length s)
        (Bc1.measure env est data.length k) out st1 := by
  unfold Bc1.transformAuto Auto.prepare
  rw [hmax]
  simp only
  split
  · rename_i h0; rw [h0]
  · rcases hk with h | h
    · contradiction
    · rw [if_pos h]

theorem testOrder_ne1 (useAll : Bool) : Bc1.testOrder useAll ≠ [] := by
  cases useAll <;> simp [Bc1.testOrder, Bc1.fastOrder, Bc1.fullOrder]

theorem shown1_eq (m : Machine) {data out : Buf} (hB : data.length % 8 = 0) (ho : data.length ≤ out.length)
    (s : ColourSettings) : shown1 m data out s =
      (let t := Bc1.encode m.endian s data ++ out.drop data.length
       [slice t 0 (data.length / 2)]) := by
  unfold shown1
  rw [(runs1 m hB ho).eq out s ⟨rfl, rfl⟩]
  rfl

theorem part1_length (m : Machine) {data out : Buf} (hB : data.length % 8 = 0) (s : ColourSettings) :
    (slice (Bc1.encode m.endian s data ++ out.drop data.length) 0 (data.length / 2)).length = data.length / 2 := by
  have h := ((Bc1.transform_impl m s) data data hB (Nat.le_refl _)).1
  apply slice_length_of_le
  rw [List.length_append]
  omega

/-- The estimate of candidate `s` by an estimator that answers `size x` for the bytes `x`. -/
def cost1 (m : Machine) (data out : Buf) (size : Buf → Nat) (s : ColourSettings) : Nat :=
  ((shown1 m data out s).map size).sum

/-- **C20** (BC1). An estimator that is deterministic on what it has room for and gives some candidate less than `usize::MAX`: the search succeeds
and returns the first candidate of least estimate, in the order of the test list. -/
theorem C20_bc1_auto_optimal (env : Env) (m : Machine) (est : Estimator σ E) (useAll : Bool)
    (data out : Buf) (st st1 : σ) (k : Nat) (size : Buf → Nat)
    (hB : data.length % 8 = 0) (ho : data.length ≤ out.length)
    (hmax : est.maxSize st (data.length / 2) = (st1, .ok k)) (hk : ScratchOk env k)
    (hest : ∀ st x, x.length = data.length / 2 → (est.estimate st x k).2 = .ok (size x))
    (hlt : ∃ s ∈ Bc1.testOrder useAll, cost1 m data out size s < env.usizeMax) :
    ∃ out' st' s, Bc1.transformAuto env m est useAll data out data.length st = some (out', st', .ok s) ∧
      FirstLeast (cost1 m data out size) (Bc1.testOrder useAll) s := by
  have hd : ∀ st s, (Bc1.measure env est data.length k st
      (Bc1.encode m.endian s data ++ out.drop data.length)).2 = .ok (cost1 m data out size s) := by
    intro st s
    unfold Bc1.measure cost1
    rw [shown1_eq m hB ho, hest _ _ (part1_length m hB s)]
    simp
  obtain ⟨st', s, h1, h2⟩ := Auto.search_best (runs1 m hB ho) env (dflt := Bc1.defaultSettings) st1
    (testOrder_ne1 useAll) ⟨rfl, rfl⟩ hd hlt
  exact ⟨_, st', s, by rw [auto_eq1 env m est useAll data out hmax hk]; exact h1, h2⟩

/-- **C21** (BC1), candidates: the exhaustive mode tests every settings value exactly once, the fast mode exactly those without
decorrelation or with `Variant1`, once each, which is half of them. -/
theorem C21_bc1_candidates : (Bc1.testOrder true).Nodup ∧ (∀ s : ColourSettings, s ∈ Bc1.testOrder true) ∧
    (Bc1.testOrder false).Nodup ∧ (∀ s : ColourSettings, s ∈ Bc1.testOrder false ↔ s.decorr = .none ∨ s.decorr = .v1) ∧
    2 * (Bc1.testOrder false).length = (Bc1.testOrder true).length := by
  refine ⟨by decide, ?_, by decide, ?_, by decide⟩ <;>
    (rintro ⟨v, a⟩; cases v <;> cases a <;> decide)

/-- **C21** (BC1), comparison: with the same deterministic estimator both modes succeed and the estimate of the
exhaustive result is at most that of the fast result. -/
theorem C21_bc1_exhaustive_not_worse (env : Env) (m : Machine) (est : Estimator σ E)
    (data out : Buf) (st st1 : σ) (k : Nat) (size : Buf → Nat)
    (hB : data.length % 8 = 0) (ho : data.length ≤ out.length)
    (hmax : est.maxSize st (data.length / 2) = (st1, .ok k)) (hk : ScratchOk env k)
    (hest : ∀ st x, x.length = data.length / 2 → (est.estimate st x k).2 = .ok (size x))
    (hsize : ∀ x, x.length = data.length / 2 → size x ≤ env.usizeMax) :
    ∃ o1 o2 s1 s2 a c, Bc1.transformAuto env m est true data out data.length st = some (o1, s1, .ok a) ∧
      Bc1.transformAuto env m est false data out data.length st = some (o2, s2, .ok c) ∧
      cost1 m data out size a ≤ cost1 m data out size c := by
  have hd : ∀ st s, (Bc1.measure env est data.length k st
      (Bc1.encode m.endian s data ++ out.drop data.length)).2 = .ok (cost1 m data out size s) := by
    intro st s
    unfold Bc1.measure cost1
    rw [shown1_eq m hB ho, hest _ _ (part1_length m hB s)]
    simp
  have hsum : ∀ s, cost1 m data out size s ≤ env.usizeMax := fun s => by
    unfold cost1
    rw [shown1_eq m hB ho]
    simp only [List.map_cons, List.map_nil, List.sum_cons, List.sum_nil, Nat.add_zero]
    exact hsize _ (part1_length m hB s)
  have res : ∀ useAll, ∃ o s' a, Bc1.transformAuto env m est useAll data out data.length st = some (o, s', .ok a) ∧
      ∀ x ∈ Bc1.testOrder useAll, cost1 m data out size a ≤ cost1 m data out size x := by
    intro useAll
    rw [auto_eq1 env m est useAll data out hmax hk]
    by_cases hlt : ∃ s ∈ Bc1.testOrder useAll, cost1 m data out size s < env.usizeMax
    · obtain ⟨st', s, h1, pre, post, hp, h2, h3⟩ := Auto.search_best (runs1 m hB ho) env
        (dflt := Bc1.defaultSettings) st1 (testOrder_ne1 useAll) ⟨rfl, rfl⟩ hd hlt
      refine ⟨_, st', s, h1, fun x hx => ?_⟩
      rw [hp] at hx
      rcases List.mem_append.1 hx with h | h
      · exact Nat.le_of_lt (h2 x h)
      · rcases List.mem_cons.1 h with rfl | h
        · exact Nat.le_refl _
        · exact h3 x h
    · have hge : ∀ s ∈ Bc1.testOrder useAll, env.usizeMax ≤ cost1 m data out size s := fun s hs =>
        Nat.le_of_not_lt (fun h => hlt ⟨s, hs, h⟩)
      obtain ⟨st', h1⟩ := Auto.search_default (runs1 m hB ho) env (dflt := Bc1.defaultSettings) st1
        (testOrder_ne1 useAll) ⟨rfl, rfl⟩ hd hge
      exact ⟨_, st', _, h1, fun x hx => Nat.le_trans (hsum _) (hge x hx)⟩
  obtain ⟨o1, s1, a, h1, h2⟩ := res true
  obtain ⟨o2, s2, c, h3, _⟩ := res false
  exact ⟨o1, o2, s1, s2, a, c, h1, h3, h2 c (C21_bc1_candidates.2.1 c)⟩

/-- **C22** (BC1). Estimator failures become errors: (1) a failing size bound; (2) otherwise, with the scratch
buffer allocated, the first failure among the questions in test order (`ask`); (3) no failure, then settings are returned;
(4) a failing allocation is reported as such. -/
theorem C22_bc1_estimator_failures (env : Env) (m : Machine) (est : Estimator σ E) (useAll : Bool)
    (data out : Buf) (st : σ) (hB : data.length % 8 = 0) (ho : data.length ≤ out.length) :
    (∀ st1 e, est.maxSize st (data.length / 2) = (st1, .error e) →
      Bc1.transformAuto env m est useAll data out data.length st = some (out, st1, .error (.sizeEstimation e))) ∧
    (∀ st1 k st2 e, est.maxSize st (data.length / 2) = (st1, .ok k) → ScratchOk env k →
      ask est k st1 ((Bc1.testOrder useAll).flatMap (shown1 m data out)) = (st2, .error e) →
      ∃ out', Bc1.transformAuto env m est useAll data out data.length st =
        some (out', st2, .error (.sizeEstimation e))) ∧
    (∀ st1 k st2, est.maxSize st (data.length / 2) = (st1, .ok k) → ScratchOk env k →
      ask est k st1 ((Bc1.testOrder useAll).flatMap (shown1 m data out)) = (st2, .ok ()) →
      ∃ out' s, Bc1.transformAuto env m est useAll data out data.length st = some (out', st2, .ok s)) ∧
    (∀ st1 k, est.maxSize st (data.length / 2) = (st1, .ok k) → ¬ ScratchOk env k →
      Bc1.transformAuto env m est useAll data out data.length st = some (out, st1, .error .allocate)) := by
  have hm : ∀ k st s, ask est k st (shown1 m data out s) = forget (Bc1.measure env est data.length k st
      (Bc1.encode m.endian s data ++ out.drop data.length)) := by
    intro k
    intro st s
    rw [shown1_eq m hB ho]
    simp only [ask, Bc1.measure]
    rcases est.estimate st _ k with ⟨st', _ | _⟩ <;> rfl
  refine ⟨fun st1 e h => ?_, fun st1 k st2 e h hk ha => ?_, fun st1 k st2 h hk ha => ?_, fun st1 k h hk => ?_⟩
  · unfold Bc1.transformAuto Auto.prepare; rw [h]
  · rw [auto_eq1 env m est useAll data out h hk]
    rw [ask_answers est k (hm k)] at ha
    cases hr : Auto.answers (Bc1.measure env est data.length k)
        (fun s => Bc1.encode m.endian s data ++ out.drop data.length) st1 (Bc1.testOrder useAll) with
    | mk st3 r =>
      rw [hr] at ha
      cases r with
      | ok ns => simp [forget] at ha
      | error e' =>
        simp only [forget, Prod.mk.injEq, Except.error.injEq] at ha
        obtain ⟨rfl, rfl⟩ := ha
        obtain ⟨out', h1, _⟩ := Auto.search_error (runs1 m hB ho) _ env (dflt := Bc1.defaultSettings) ⟨rfl, rfl⟩ hr
        exact ⟨out', h1⟩
  · rw [auto_eq1 env m est useAll data out h hk]
    rw [ask_answers est k (hm k)] at ha
    cases hr : Auto.answers (Bc1.measure env est data.length k)
        (fun s => Bc1.encode m.endian s data ++ out.drop data.length) st1 (Bc1.testOrder useAll) with
    | mk st3 r =>
      rw [hr] at ha
      cases r with
      | error e => simp [forget] at ha
      | ok ns =>
        simp only [forget, Prod.mk.injEq, and_true] at ha
        subst ha
        exact ⟨_, _, Auto.search_ok (runs1 m hB ho) _ env (testOrder_ne1 useAll) ⟨rfl, rfl⟩ hr⟩
  · unfold Bc1.transformAuto Auto.prepare
    rw [h]
    simp only [ScratchOk, not_or] at hk
    simp only [if_neg hk.1, hk.2]
    rfl

/-! ## BC2 -/

/-- What the estimator is shown for candidate `s`: the colour section of the manual transform. -/
def shown2 (m : Machine) (data out : Buf) (s : ColourSettings) : List Buf :=
  let t := (Bc2.transformWithSettings m data out data.length s).getD []
  [slice t (data.length / 2) (data.length / 4)]

theorem runs2 (m : Machine) {data out : Buf} (hB : data.length % 16 = 0) (ho : data.length ≤ out.length) :
    Auto.Runs (fun o => o.length = out.length ∧ o.drop data.length = out.drop data.length)
      (fun o s => Bc2.transformWithSettings m data o data.length s)
      (fun s => Bc2.encode m.endian s data ++ out.drop data.length) :=
  Auto.runs_of_implements (Bc2.transform_impl m) hB ho

/-- **C18.** Whatever the estimator answers, the automatic transform does not fail in any other way than by
returning an error, and if it returns settings `s`, the buffer holds exactly the manual transform with `s`,
so that untransforming with `s` gives back the data. -/
theorem C18_bc2_auto_reports_used (env : Env) (m : Machine) (est : Estimator σ E) (useAll : Bool)
    (data out : Buf) (st : σ) (hB : data.length % 16 = 0) (ho : data.length ≤ out.length) :
    ∃ out' st' r, Bc2.transformAuto env m est useAll data out data.length st = some (out', st', r) ∧
      out'.length = out.length ∧ out'.drop data.length = out.drop data.length ∧
      ∀ s, r = .ok s →
        Bc2.transformWithSettings m data out data.length s = some out' ∧
        ∀ m' : Machine, m'.endian = m.endian → ∀ buf : Buf, data.length ≤ buf.length →
          ∃ u, Bc2.untransformWithSettings m' (out'.take data.length) buf data.length s = some u ∧
            u.take data.length = data := by
  have H := runs2 m hB ho
  have hP : (fun o : Buf => o.length = out.length ∧ o.drop data.length = out.drop data.length) out := ⟨rfl, rfl⟩
  have body : ∀ comp st1, ∃ out' st' r, Auto.search env (Bc2.testOrder useAll) Bc2.defaultSettings
      (fun out s => Bc2.transformWithSettings m data out data.length s)
      (Bc2.measure env est data.length comp) out st1 = some (out', st', r) ∧
      (out'.length = out.length ∧ out'.drop data.length = out.drop data.length) ∧
      (∀ s, r = .ok s → out' = Bc2.encode m.endian s data ++ out.drop data.length) := fun comp st1 =>
    Auto.search_total H _ env st1 (by cases useAll <;> simp [Bc2.testOrder, Bc2.fastOrder, Bc2.fullOrder]) hP
  have fin : ∀ {out' : Buf} {s : ColourSettings}, out' = Bc2.encode m.endian s data ++ out.drop data.length →
      Bc2.transformWithSettings m data out data.length s = some out' ∧
        ∀ m' : Machine, m'.endian = m.endian → ∀ buf : Buf, data.length ≤ buf.length →
          ∃ u, Bc2.untransformWithSettings m' (out'.take data.length) buf data.length s = some u ∧
            u.take data.length = data := by
    intro out' s hs
    have e1 := H.eq out s hP
    refine ⟨by rw [hs]; exact e1, fun m' hm' buf hb => ?_⟩
    obtain ⟨t, u, h1, h2, h3⟩ := (Bc2.transform_impl m s).roundtrip (Bc2.untransform_impl m' s)
      (fun d h => by rw [hm']; exact Bc2.decode_encode _ s d h) hB ho hb
    rw [e1, Option.some.injEq] at h1
    rw [hs, h1]
    exact ⟨u, h2, h3⟩
  unfold Bc2.transformAuto Auto.prepare
  cases hmx : est.maxSize st (data.length / 4) with
  | mk st1 r =>
    cases r with
    | error e => exact ⟨_, _, _, rfl, rfl, rfl, fun s hs => by simp at hs⟩
    | ok k =>
      simp only
      split
      · obtain ⟨o, s', r, h1, h2, h3⟩ := body 0 st1
        exact ⟨o, s', r, h1, h2.1, h2.2, fun s hs => fin (h3 s hs)⟩
      · split
        · obtain ⟨o, s', r, h1, h2, h3⟩ := body k st1
          exact ⟨o, s', r, h1, h2.1, h2.2, fun s hs => fin (h3 s hs)⟩
        · exact ⟨_, _, _, rfl, rfl, rfl, fun s hs => by simp at hs⟩

theorem auto_eq2 (env : Env) (m : Machine) (est : Estimator σ E) (useAll : Bool) (data out : Buf) {st st1 : σ}
    {k : Nat} (hmax : est.maxSize st (data.length / 4) = (st1, .ok k)) (hk : ScratchOk env k) :
    Bc2.transformAuto env m est useAll data out data.length st =
      Auto.search env (Bc2.testOrder useAll) Bc2.defaultSettings
        (fun out s => Bc2.transformWithSettings m data out data.length s)
        (Bc2.measure env est data.length k) out st1 := by
  unfold Bc2.transformAuto Auto.prepare
  rw [hmax]
  simp only
  split
  · rename_i h0; rw [h0]
  · rcases hk with h | h
    · contradiction
    · rw [if_pos h]

theorem testOrder_ne2 (useAll : Bool) : Bc2.testOrder useAll ≠ [] := by
  cases useAll <;> simp [Bc2.testOrder, Bc2.fastOrder, Bc2.fullOrder]

theorem shown2_eq (m : Machine) {data out : Buf} (hB : data.length % 16 = 0) (ho : data.length ≤ out.length)
    (s : ColourSettings) : shown2 m data out s =
      (let t := Bc2.encode m.endian s data ++ out.drop data.length
       [slice t (data.length / 2) (data.length / 4)]) := by
  unfold shown2
  rw [(runs2 m hB ho).eq out s ⟨rfl, rfl⟩]
  rfl

theorem part2_length (m : Machine) {data out : Buf} (hB : data.length % 16 = 0) (s : ColourSettings) :
    (slice (Bc2.encode m.endian s data ++ out.drop data.length) (data.length / 2) (data.length / 4)).length = data.length / 4 := by
  have h := ((Bc2.transform_impl m s) data data hB (Nat.le_refl _)).1
  apply slice_length_of_le
  rw [List.length_append]
  omega

/-- The estimate of candidate `s` by an estimator that answers `size x` for the bytes `x`. -/
def cost2 (m : Machine) (data out : Buf) (size : Buf → Nat) (s : ColourSettings) : Nat :=
  ((shown2 m data out s).map size).sum

/-- **C20** (BC2). An estimator that is deterministic on what it has room for and gives some candidate less than `usize::MAX`: the search succeeds
and returns the first candidate of least estimate, in the order of the test list. -/
theorem C20_bc2_auto_optimal (env : Env) (m : Machine) (est : Estimator σ E) (useAll : Bool)
    (data out : Buf) (st st1 : σ) (k : Nat) (size : Buf → Nat)
    (hB : data.length % 16 = 0) (ho : data.length ≤ out.length)
    (hmax : est.maxSize st (data.length / 4) = (st1, .ok k)) (hk : ScratchOk env k)
    (hest : ∀ st x, x.length = data.length / 4 → (est.estimate st x k).2 = .ok (size x))
    (hlt : ∃ s ∈ Bc2.testOrder useAll, cost2 m data out size s < env.usizeMax) :
    ∃ out' st' s, Bc2.transformAuto env m est useAll data out data.length st = some (out', st', .ok s) ∧
      FirstLeast (cost2 m data out size) (Bc2.testOrder useAll) s := by
  have hd : ∀ st s, (Bc2.measure env est data.length k st
      (Bc2.encode m.endian s data ++ out.drop data.length)).2 = .ok (cost2 m data out size s) := by
    intro st s
    unfold Bc2.measure cost2
    rw [shown2_eq m hB ho, hest _ _ (part2_length m hB s)]
    simp
  obtain ⟨st', s, h1, h2⟩ := Auto.search_best (runs2 m hB ho) env (dflt := Bc2.defaultSettings) st1
    (testOrder_ne2 useAll) ⟨rfl, rfl⟩ hd hlt
  exact ⟨_, st', s, by rw [auto_eq2 env m est useAll data out hmax hk]; exact h1, h2⟩

/-- **C21** (BC2), candidates: the exhaustive mode tests every settings value exactly once, the fast mode exactly those without
decorrelation or with `Variant1`, once each, which is half of them. -/
theorem C21_bc2_candidates : (Bc2.testOrder true).Nodup ∧ (∀ s : ColourSettings, s ∈ Bc2.testOrder true) ∧
    (Bc2.testOrder false).Nodup ∧ (∀ s : ColourSettings, s ∈ Bc2.testOrder false ↔ s.decorr = .none ∨ s.decorr = .v1) ∧
    2 * (Bc2.testOrder false).length = (Bc2.testOrder true).length := by
  refine ⟨by decide, ?_, by decide, ?_, by decide⟩ <;>
    (rintro ⟨v, a⟩; cases v <;> cases a <;> decide)

/-- **C21** (BC2), comparison: with the same deterministic estimator both modes succeed and the estimate of the
exhaustive result is at most that of the fast result. -/
theorem C21_bc2_exhaustive_not_worse (env : Env) (m : Machine) (est : Estimator σ E)
    (data out : Buf) (st st1 : σ) (k : Nat) (size : Buf → Nat)
    (hB : data.length % 16 = 0) (ho : data.length ≤ out.length)
    (hmax : est.maxSize st (data.length / 4) = (st1, .ok k)) (hk : ScratchOk env k)
    (hest : ∀ st x, x.length = data.length / 4 → (est.estimate st x k).2 = .ok (size x))
    (hsize : ∀ x, x.length = data.length / 4 → size x ≤ env.usizeMax) :
    ∃ o1 o2 s1 s2 a c, Bc2.transformAuto env m est true data out data.length st = some (o1, s1, .ok a) ∧
      Bc2.transformAuto env m est false data out data.length st = some (o2, s2, .ok c) ∧
      cost2 m data out size a ≤ cost2 m data out size c := by
  have hd : ∀ st s, (Bc2.measure env est data.length k st
      (Bc2.encode m.endian s data ++ out.drop data.length)).2 = .ok (cost2 m data out size s) := by
    intro st s
    unfold Bc2.measure cost2
    rw [shown2_eq m hB ho, hest _ _ (part2_length m hB s)]
    simp
  have hsum : ∀ s, cost2 m data out size s ≤ env.usizeMax := fun s => by
    unfold cost2
    rw [shown2_eq m hB ho]
    simp only [List.map_cons, List.map_nil, List.sum_cons, List.sum_nil, Nat.add_zero]
    exact hsize _ (part2_length m hB s)
  have res : ∀ useAll, ∃ o s' a, Bc2.transformAuto env m est useAll data out data.length st = some (o, s', .ok a) ∧
      ∀ x ∈ Bc2.testOrder useAll, cost2 m data out size a ≤ cost2 m data out size x := by
    intro useAll
    rw [auto_eq2 env m est useAll data out hmax hk]
    by_cases hlt : ∃ s ∈ Bc2.testOrder useAll, cost2 m data out size s < env.usizeMax
    · obtain ⟨st', s, h1, pre, post, hp, h2, h3⟩ := Auto.search_best (runs2 m hB ho) env
        (dflt := Bc2.defaultSettings) st1 (testOrder_ne2 useAll) ⟨rfl, rfl⟩ hd hlt
      refine ⟨_, st', s, h1, fun x hx => ?_⟩
      rw [hp] at hx
      rcases List.mem_append.1 hx with h | h
      · exact Nat.le_of_lt (h2 x h)
      · rcases List.mem_cons.1 h with rfl | h
        · exact Nat.le_refl _
        · exact h3 x h
    · have hge : ∀ s ∈ Bc2.testOrder useAll, env.usizeMax ≤ cost2 m data out size s := fun s hs =>
        Nat.le_of_not_lt (fun h => hlt ⟨s, hs, h⟩)
      obtain ⟨st', h1⟩ := Auto.search_default (runs2 m hB ho) env (dflt := Bc2.defaultSettings) st1
        (testOrder_ne2 useAll) ⟨rfl, rfl⟩ hd hge
      exact ⟨_, st', _, h1, fun x hx => Nat.le_trans (hsum _) (hge x hx)⟩
  obtain ⟨o1, s1, a, h1, h2⟩ := res true
  obtain ⟨o2, s2, c, h3, _⟩ := res false
  exact ⟨o1, o2, s1, s2, a, c, h1, h3, h2 c (C21_bc2_candidates.2.1 c)⟩

/-- **C22** (BC2). Estimator failures become errors: (1) a failing size bound; (2) otherwise, with the scratch
buffer allocated, the first failure among the questions in test order (`ask`); (3) no failure, then settings are returned;
(4) a failing allocation is reported as such. -/
theorem C22_bc2_estimator_failures (env : Env) (m : Machine) (est : Estimator σ E) (useAll : Bool)
    (data out : Buf) (st : σ) (hB : data.length % 16 = 0) (ho : data.length ≤ out.length) :
    (∀ st1 e, est.maxSize st (data.length / 4) = (st1, .error e) →
      Bc2.transformAuto env m est useAll data out data.length st = some (out, st1, .error (.sizeEstimation e))) ∧
    (∀ st1 k st2 e, est.maxSize st (data.length / 4) = (st1, .ok k) → ScratchOk env k →
      ask est k st1 ((Bc2.testOrder useAll).flatMap (shown2 m data out)) = (st2, .error e) →
      ∃ out', Bc2.transformAuto env m est useAll data out data.length st =
        some (out', st2, .error (.sizeEstimation e))) ∧
    (∀ st1 k st2, est.maxSize st (data.length / 4) = (st1, .ok k) → ScratchOk env k →
      ask est k st1 ((Bc2.testOrder useAll).flatMap (shown2 m data out)) = (st2, .ok ()) →
      ∃ out' s, Bc2.transformAuto env m est useAll data out data.length st = some (out', st2, .ok s)) ∧
    (∀ st1 k, est.maxSize st (data.length / 4) = (st1, .ok k) → ¬ ScratchOk env k →
      Bc2.transformAuto env m est useAll data out data.length st = some (out, st1, .error .allocate)) := by
  have hm : ∀ k st s, ask est k st (shown2 m data out s) = forget (Bc2.measure env est data.length k st
      (Bc2.encode m.endian s data ++ out.drop data.length)) := by
    intro k
    intro st s
    rw [shown2_eq m hB ho]
    simp only [ask, Bc2.measure]
    rcases est.estimate st _ k with ⟨st', _ | _⟩ <;> rfl
  refine ⟨fun st1 e h => ?_, fun st1 k st2 e h hk ha => ?_, fun st1 k st2 h hk ha => ?_, fun st1 k h hk => ?_⟩
  · unfold Bc2.transformAuto Auto.prepare; rw [h]
  · rw [auto_eq2 env m est useAll data out h hk]
    rw [ask_answers est k (hm k)] at ha
    cases hr : Auto.answers (Bc2.measure env est data.length k)
        (fun s => Bc2.encode m.endian s data ++ out.drop data.length) st1 (Bc2.testOrder useAll) with
    | mk st3 r =>
      rw [hr] at ha
      cases r with
      | ok ns => simp [forget] at ha
      | error e' =>
        simp only [forget, Prod.mk.injEq, Except.error.injEq] at ha
        obtain ⟨rfl, rfl⟩ := ha
        obtain ⟨out', h1, _⟩ := Auto.search_error (runs2 m hB ho) _ env (dflt := Bc2.defaultSettings) ⟨rfl, rfl⟩ hr
        exact ⟨out', h1⟩
  · rw [auto_eq2 env m est useAll data out h hk]
    rw [ask_answers est k (hm k)] at ha
    cases hr : Auto.answers (Bc2.measure env est data.length k)
        (fun s => Bc2.encode m.endian s data ++ out.drop data.length) st1 (Bc2.testOrder useAll) with
    | mk st3 r =>
      rw [hr] at ha
      cases r with
      | error e => simp [forget] at ha
      | ok ns =>
        simp only [forget, Prod.mk.injEq, and_true] at ha
        subst ha
        exact ⟨_, _, Auto.search_ok (runs2 m hB ho) _ env (testOrder_ne2 useAll) ⟨rfl, rfl⟩ hr⟩
  · unfold Bc2.transformAuto Auto.prepare
    rw [h]
    simp only [ScratchOk, not_or] at hk
    simp only [if_neg hk.1, hk.2]
    rfl

/-! ## BC3 -/

/-- What the estimator is shown for candidate `s`: the alpha endpoints and the colour endpoints of the manual transform. -/
def shown3 (m : Machine) (data out : Buf) (s : Bc3.Settings) : List Buf :=
  let t := (Bc3.transformWithSettings m data out data.length s).getD []
  [slice t 0 (data.length / 16 * 2), slice t (data.length / 2) (data.length / 16 * 4)]

theorem runs3 (m : Machine) {data out : Buf} (hB : data.length % 16 = 0) (ho : data.length ≤ out.length) :
    Auto.Runs (fun o => o.length = out.length ∧ o.drop data.length = out.drop data.length)
      (fun o s => Bc3.transformWithSettings m data o data.length s)
      (fun s => Bc3.encode m.endian s data ++ out.drop data.length) :=
  Auto.runs_of_implements (Bc3.transform_impl m) hB ho

/-- **C19.** Whatever the estimator answers, the automatic transform does not fail in any other way than by
returning an error, and if it returns settings `s`, the buffer holds exactly the manual transform with `s`,
so that untransforming with `s` gives back the data. -/
theorem C19_bc3_auto_reports_used (env : Env) (m : Machine) (est : Estimator σ E) (useAll : Bool)
    (data out : Buf) (st : σ) (hB : data.length % 16 = 0) (ho : data.length ≤ out.length) :
    ∃ out' st' r, Bc3.transformAuto env m est useAll data out data.length st = some (out', st', r) ∧
      out'.length = out.length ∧ out'.drop data.length = out.drop data.length ∧
      ∀ s, r = .ok s →
        Bc3.transformWithSettings m data out data.length s = some out' ∧
        ∀ m' : Machine, m'.endian = m.endian → ∀ buf : Buf, data.length ≤ buf.length →
          ∃ u, Bc3.untransformWithSettings m' (out'.take data.length) buf data.length s = some u ∧
            u.take data.length = data := by
  have H := runs3 m hB ho
  have hP : (fun o : Buf => o.length = out.length ∧ o.drop data.length = out.drop data.length) out := ⟨rfl, rfl⟩
  have body : ∀ comp st1, ∃ out' st' r, Auto.search env (Bc3.testOrder useAll) Bc3.defaultSettings
      (fun out s => Bc3.transformWithSettings m data out data.length s)
      (Bc3.measure env est data.length comp) out st1 = some (out', st', r) ∧
      (out'.length = out.length ∧ out'.drop data.length = out.drop data.length) ∧
      (∀ s, r = .ok s → out' = Bc3.encode m.endian s data ++ out.drop data.length) := fun comp st1 =>
    Auto.search_total H _ env st1 (by cases useAll <;> simp [Bc3.testOrder, Bc3.fastOrder, Bc3.fullOrder]) hP
  have fin : ∀ {out' : Buf} {s : Bc3.Settings}, out' = Bc3.encode m.endian s data ++ out.drop data.length →
      Bc3.transformWithSettings m data out data.length s = some out' ∧
        ∀ m' : Machine, m'.endian = m.endian → ∀ buf : Buf, data.length ≤ buf.length →
          ∃ u, Bc3.untransformWithSettings m' (out'.take data.length) buf data.length s = some u ∧
            u.take data.length = data := by
    intro out' s hs
    have e1 := H.eq out s hP
    refine ⟨by rw [hs]; exact e1, fun m' hm' buf hb => ?_⟩
    obtain ⟨t, u, h1, h2, h3⟩ := (Bc3.transform_impl m s).roundtrip (Bc3.untransform_impl m' s)
      (fun d h => by rw [hm']; exact Bc3.decode_encode _ s d h) hB ho hb
    rw [e1, Option.some.injEq] at h1
    rw [hs, h1]
    exact ⟨u, h2, h3⟩
  unfold Bc3.transformAuto Auto.prepare
  cases hmx : est.maxSize st (data.length / 4) with
  | mk st1 r =>
    cases r with
    | error e => exact ⟨_, _, _, rfl, rfl, rfl, fun s hs => by simp at hs⟩
    | ok k =>
      simp only
      split
      · obtain ⟨o, s', r, h1, h2, h3⟩ := body 0 st1
        exact ⟨o, s', r, h1, h2.1, h2.2, fun s hs => fin (h3 s hs)⟩
      · split
        · obtain ⟨o, s', r, h1, h2, h3⟩ := body k st1
          exact ⟨o, s', r, h1, h2.1, h2.2, fun s hs => fin (h3 s hs)⟩
        · exact ⟨_, _, _, rfl, rfl, rfl, fun s hs => by simp at hs⟩

theorem auto_eq3 (env : Env) (m : Machine) (est : Estimator σ E) (useAll : Bool) (data out : Buf) {st st1 : σ}
    {k : Nat} (hmax : est.maxSize st (data.length / 4) = (st1, .ok k)) (hk : ScratchOk env k) :
    Bc3.transformAuto env m est useAll data out data.length st =
      Auto.search env (Bc3.testOrder useAll) Bc3.defaultSettings
        (fun out s => Bc3.transformWithSettings m data out data.length s)
        (Bc3.measure env est data.length k) out st1 := by
  unfold Bc3.transformAuto Auto.prepare
  rw [hmax]
  simp only
  split
  · rename_i h0; rw [h0]
  · rcases hk with h | h
    · contradiction
    · rw [if_pos h]

theorem testOrder_ne3 (useAll : Bool) : Bc3.testOrder useAll ≠ [] := by
  cases useAll <;> simp [Bc3.testOrder, Bc3.fastOrder, Bc3.fullOrder]

theorem shown3_eq (m : Machine) {data out : Buf} (hB : data.length % 16 = 0) (ho : data.length ≤ out.length)
    (s : Bc3.Settings) : shown3 m data out s =
      (let t := Bc3.encode m.endian s data ++ out.drop data.length
       [slice t 0 (data.length / 16 * 2), slice t (data.length / 2) (data.length / 16 * 4)]) := by
  unfold shown3
  rw [(runs3 m hB ho).eq out s ⟨rfl, rfl⟩]
  rfl

/-- The estimate of candidate `s` by an estimator that answers `size x` for the bytes `x`. -/
def cost3 (m : Machine) (data out : Buf) (size : Buf → Nat) (s : Bc3.Settings) : Nat :=
  ((shown3 m data out s).map size).sum

/-- **C20** (BC3). An estimator that is deterministic on what it has room for and gives some candidate less than `usize::MAX`: the search succeeds
and returns the first candidate of least estimate, in the order of the test list.  For BC3 the estimate of a candidate is the sum for its two parts; it must fit in a `usize`. -/
theorem C20_bc3_auto_optimal (env : Env) (m : Machine) (est : Estimator σ E) (useAll : Bool)
    (data out : Buf) (st st1 : σ) (k : Nat) (size : Buf → Nat)
    (hB : data.length % 16 = 0) (ho : data.length ≤ out.length)
    (hmax : est.maxSize st (data.length / 4) = (st1, .ok k)) (hk : ScratchOk env k)
    (hest : ∀ st x, x.length ≤ data.length / 4 → (est.estimate st x k).2 = .ok (size x))
    (hsum : ∀ s, cost3 m data out size s ≤ env.usizeMax)
    (hlt : ∃ s ∈ Bc3.testOrder useAll, cost3 m data out size s < env.usizeMax) :
    ∃ out' st' s, Bc3.transformAuto env m est useAll data out data.length st = some (out', st', .ok s) ∧
      FirstLeast (cost3 m data out size) (Bc3.testOrder useAll) s := by
  have hd : ∀ st s, (Bc3.measure env est data.length k st
      (Bc3.encode m.endian s data ++ out.drop data.length)).2 = .ok (cost3 m data out size s) := by
    intro st s
    have hb := hsum s
    have e1 := hest st (slice (Bc3.encode m.endian s data ++ out.drop data.length) 0 (data.length / 16 * 2))
      (Nat.le_trans (slice_length_le _ _ _) (by omega))
    unfold Bc3.measure
    revert e1
    cases est.estimate st (slice (Bc3.encode m.endian s data ++ out.drop data.length) 0
      (data.length / 16 * 2)) k with
    | mk st1 r1 =>
      intro e1
      simp only at e1
      subst e1
      have e2 := hest st1 (slice (Bc3.encode m.endian s data ++ out.drop data.length) (data.length / 2)
        (data.length / 16 * 4)) (Nat.le_trans (slice_length_le _ _ _) (by omega))
      simp only
      revert e2
      cases est.estimate st1 (slice (Bc3.encode m.endian s data ++ out.drop data.length) (data.length / 2)
        (data.length / 16 * 4)) k with
      | mk st2 r2 =>
        intro e2
        simp only at e2
        subst e2
        simp only
        unfold cost3 at hb ⊢
        rw [shown3_eq m hB ho] at hb ⊢
        simp only [List.map_cons, List.map_nil, List.sum_cons, List.sum_nil, Nat.add_zero] at hb ⊢
        rw [Nat.mod_eq_of_lt (by omega)]
  obtain ⟨st', s, h1, h2⟩ := Auto.search_best (runs3 m hB ho) env (dflt := Bc3.defaultSettings) st1
    (testOrder_ne3 useAll) ⟨rfl, rfl⟩ hd hlt
  exact ⟨_, st', s, by rw [auto_eq3 env m est useAll data out hmax hk]; exact h1, h2⟩

/-- **C21** (BC3), candidates: the exhaustive mode tests every settings value exactly once, the fast mode exactly those without
decorrelation or with `Variant1`, once each, which is half of them. -/
theorem C21_bc3_candidates : (Bc3.testOrder true).Nodup ∧ (∀ s : Bc3.Settings, s ∈ Bc3.testOrder true) ∧
    (Bc3.testOrder false).Nodup ∧ (∀ s : Bc3.Settings, s ∈ Bc3.testOrder false ↔ s.decorr = .none ∨ s.decorr = .v1) ∧
    2 * (Bc3.testOrder false).length = (Bc3.testOrder true).length := by
  refine ⟨by decide, ?_, by decide, ?_, by decide⟩ <;>
    (rintro ⟨v, a, c⟩; cases v <;> cases a <;> cases c <;> decide)

/-- **C21** (BC3), comparison: with the same deterministic estimator both modes succeed and the estimate of the
exhaustive result is at most that of the fast result.  For BC3 the estimate of a candidate is the sum for its two parts; it must fit in a `usize`. -/
theorem C21_bc3_exhaustive_not_worse (env : Env) (m : Machine) (est : Estimator σ E)
    (data out : Buf) (st st1 : σ) (k : Nat) (size : Buf → Nat)
    (hB : data.length % 16 = 0) (ho : data.length ≤ out.length)
    (hmax : est.maxSize st (data.length / 4) = (st1, .ok k)) (hk : ScratchOk env k)
    (hest : ∀ st x, x.length ≤ data.length / 4 → (est.estimate st x k).2 = .ok (size x))
    (hsum : ∀ s, cost3 m data out size s ≤ env.usizeMax) :
    ∃ o1 o2 s1 s2 a c, Bc3.transformAuto env m est true data out data.length st = some (o1, s1, .ok a) ∧
      Bc3.transformAuto env m est false data out data.length st = some (o2, s2, .ok c) ∧
      cost3 m data out size a ≤ cost3 m data out size c := by
  have hd : ∀ st s, (Bc3.measure env est data.length k st
      (Bc3.encode m.endian s data ++ out.drop data.length)).2 = .ok (cost3 m data out size s) := by
    intro st s
    have hb := hsum s
    have e1 := hest st (slice (Bc3.encode m.endian s data ++ out.drop data.length) 0 (data.length / 16 * 2))
      (Nat.le_trans (slice_length_le _ _ _) (by omega))
    unfold Bc3.measure
    revert e1
    cases est.estimate st (slice (Bc3.encode m.endian s data ++ out.drop data.length) 0
      (data.length / 16 * 2)) k with
    | mk st1 r1 =>
      intro e1
      simp only at e1
      subst e1
      have e2 := hest st1 (slice (Bc3.encode m.endian s data ++ out.drop data.length) (data.length / 2)
        (data.length / 16 * 4)) (Nat.le_trans (slice_length_le _ _ _) (by omega))
      simp only
      revert e2
      cases est.estimate st1 (slice (Bc3.encode m.endian s data ++ out.drop data.length) (data.length / 2)
        (data.length / 16 * 4)) k with
      | mk st2 r2 =>
        intro e2
        simp only at e2
        subst e2
        simp only
        unfold cost3 at hb ⊢
        rw [shown3_eq m hB ho] at hb ⊢
        simp only [List.map_cons, List.map_nil, List.sum_cons, List.sum_nil, Nat.add_zero] at hb ⊢
        rw [Nat.mod_eq_of_lt (by omega)]
  have res : ∀ useAll, ∃ o s' a, Bc3.transformAuto env m est useAll data out data.length st = some (o, s', .ok a) ∧
      ∀ x ∈ Bc3.testOrder useAll, cost3 m data out size a ≤ cost3 m data out size x := by
    intro useAll
    rw [auto_eq3 env m est useAll data out hmax hk]
    by_cases hlt : ∃ s ∈ Bc3.testOrder useAll, cost3 m data out size s < env.usizeMax
    · obtain ⟨st', s, h1, pre, post, hp, h2, h3⟩ := Auto.search_best (runs3 m hB ho) env
        (dflt := Bc3.defaultSettings) st1 (testOrder_ne3 useAll) ⟨rfl, rfl⟩ hd hlt
      refine ⟨_, st', s, h1, fun x hx => ?_⟩
      rw [hp] at hx
      rcases List.mem_append.1 hx with h | h
      · exact Nat.le_of_lt (h2 x h)
      · rcases List.mem_cons.1 h with rfl | h
        · exact Nat.le_refl _
        · exact h3 x h
    · have hge : ∀ s ∈ Bc3.testOrder useAll, env.usizeMax ≤ cost3 m data out size s := fun s hs =>
        Nat.le_of_not_lt (fun h => hlt ⟨s, hs, h⟩)
      obtain ⟨st', h1⟩ := Auto.search_default (runs3 m hB ho) env (dflt := Bc3.defaultSettings) st1
        (testOrder_ne3 useAll) ⟨rfl, rfl⟩ hd hge
      exact ⟨_, st', _, h1, fun x hx => Nat.le_trans (hsum _) (hge x hx)⟩
  obtain ⟨o1, s1, a, h1, h2⟩ := res true
  obtain ⟨o2, s2, c, h3, _⟩ := res false
  exact ⟨o1, o2, s1, s2, a, c, h1, h3, h2 c (C21_bc3_candidates.2.1 c)⟩

/-- **C22** (BC3). Estimator failures become errors: (1) a failing size bound; (2) otherwise, with the scratch
buffer allocated, the first failure among the questions in test order (`ask`); (3) no failure, then settings are returned;
(4) a failing allocation is reported as such. -/
theorem C22_bc3_estimator_failures (env : Env) (m : Machine) (est : Estimator σ E) (useAll : Bool)
    (data out : Buf) (st : σ) (hB : data.length % 16 = 0) (ho : data.length ≤ out.length) :
    (∀ st1 e, est.maxSize st (data.length / 4) = (st1, .error e) →
      Bc3.transformAuto env m est useAll data out data.length st = some (out, st1, .error (.sizeEstimation e))) ∧
    (∀ st1 k st2 e, est.maxSize st (data.length / 4) = (st1, .ok k) → ScratchOk env k →
      ask est k st1 ((Bc3.testOrder useAll).flatMap (shown3 m data out)) = (st2, .error e) →
      ∃ out', Bc3.transformAuto env m est useAll data out data.length st =
        some (out', st2, .error (.sizeEstimation e))) ∧
    (∀ st1 k st2, est.maxSize st (data.length / 4) = (st1, .ok k) → ScratchOk env k →
      ask est k st1 ((Bc3.testOrder useAll).flatMap (shown3 m data out)) = (st2, .ok ()) →
      ∃ out' s, Bc3.transformAuto env m est useAll data out data.length st = some (out', st2, .ok s)) ∧
    (∀ st1 k, est.maxSize st (data.length / 4) = (st1, .ok k) → ¬ ScratchOk env k →
      Bc3.transformAuto env m est useAll data out data.length st = some (out, st1, .error .allocate)) := by
  have hm : ∀ k st s, ask est k st (shown3 m data out s) = forget (Bc3.measure env est data.length k st
      (Bc3.encode m.endian s data ++ out.drop data.length)) := by
    intro k
    intro st s
    rw [shown3_eq m hB ho]
    simp only [ask, Bc3.measure]
    rcases est.estimate st _ k with ⟨st', _ | _⟩
    · rfl
    · dsimp only
      rcases est.estimate st' _ k with ⟨st'', _ | _⟩ <;> rfl
  refine ⟨fun st1 e h => ?_, fun st1 k st2 e h hk ha => ?_, fun st1 k st2 h hk ha => ?_, fun st1 k h hk => ?_⟩
  · unfold Bc3.transformAuto Auto.prepare; rw [h]
  · rw [auto_eq3 env m est useAll data out h hk]
    rw [ask_answers est k (hm k)] at ha
    cases hr : Auto.answers (Bc3.measure env est data.length k)
        (fun s => Bc3.encode m.endian s data ++ out.drop data.length) st1 (Bc3.testOrder useAll) with
    | mk st3 r =>
      rw [hr] at ha
      cases r with
      | ok ns => simp [forget] at ha
      | error e' =>
        simp only [forget, Prod.mk.injEq, Except.error.injEq] at ha
        obtain ⟨rfl, rfl⟩ := ha
        obtain ⟨out', h1, _⟩ := Auto.search_error (runs3 m hB ho) _ env (dflt := Bc3.defaultSettings) ⟨rfl, rfl⟩ hr
        exact ⟨out', h1⟩
  · rw [auto_eq3 env m est useAll data out h hk]
    rw [ask_answers est k (hm k)] at ha
    cases hr : Auto.answers (Bc3.measure env est data.length k)
        (fun s => Bc3.encode m.endian s data ++ out.drop data.length) st1 (Bc3.testOrder useAll) with
    | mk st3 r =>
      rw [hr] at ha
      cases r with
      | error e => simp [forget] at ha
      | ok ns =>
        simp only [forget, Prod.mk.injEq, and_true] at ha
        subst ha
        exact ⟨_, _, Auto.search_ok (runs3 m hB ho) _ env (testOrder_ne3 useAll) ⟨rfl, rfl⟩ hr⟩
  · unfold Bc3.transformAuto Auto.prepare
    rw [h]
    simp only [ScratchOk, not_or] at hk
    simp only [if_neg hk.1, hk.2]
    rfl

/-! ## The limit of C20 and C21 for BC3 -/

/-- An estimator used below: 2^63 for the two alpha endpoint bytes and for the plain colour bytes of
`wrapBlock`, 5 for everything else. -/
def wrapEst : Estimator Unit Unit where
  maxSize st _ := (st, .ok 0)
  estimate st x _ :=
    (st, .ok (if x.length = 2 then 2 ^ 63 else if x = [0x21#8, 0x43#8, 0x65#8, 0x87#8] then 2 ^ 63 else 5))

/-- The block used below. -/
def wrapBlock : Buf := [1, 2, 3, 4, 5, 6, 7, 8, 0x21, 0x43, 0x65, 0x87, 9, 10, 11, 12]

/-- **C20** (BC3), negation without the bound on the sum: every single estimate is below `usize::MAX`, but the sum of
the two wraps around (release build) and the search returns the candidate with the largest total. -/
theorem C20_bc3_total_wraps :
    ∃ (env : Env) (m : Machine) (est : Estimator Unit Unit) (size : Buf → Nat) (data out : Buf),
      data.length % 16 = 0 ∧ data.length ≤ out.length ∧
      est.maxSize () (data.length / 4) = ((), .ok 0) ∧ (∀ st x, (est.estimate st x 0).2 = .ok (size x)) ∧
      (∀ x, size x < env.usizeMax) ∧
      ∃ out' s s', Bc3.transformAuto env m est true data out data.length () = some (out', (), .ok s) ∧
        s' ∈ Bc3.testOrder true ∧ cost3 m data out size s' < cost3 m data out size s := by
  refine ⟨⟨fun _ => true, 2 ^ 64 - 1⟩, .other .little (fun _ => 0), wrapEst,
    fun x => if x.length = 2 then 2 ^ 63 else if x = [0x21#8, 0x43#8, 0x65#8, 0x87#8] then 2 ^ 63 else 5,
    wrapBlock, List.replicate 16 0, by decide, by decide, rfl, fun _ _ => rfl, ?_, wrapBlock,
    ⟨.none, true, false⟩, ⟨.v1, false, false⟩, rfl, by decide, by decide⟩
  intro x
  simp only
  split
  · decide
  · split <;> decide

/-! ## Concrete runs -/

/-- An estimator that counts its calls and answers with the sum of the bytes; it fails from call number
`limit` on. -/
def countingEst (limit : Nat) : Estimator Nat Nat where
  maxSize st n := (st, .ok n)
  estimate st x _ := (st + 1, if st < limit then .ok (x.map BitVec.toNat).sum else .error st)

/-- A 64-bit machine with enough memory. -/
def env64 : Env := ⟨fun _ => true, 2 ^ 64 - 1⟩

/-- C17, C20, C21: a BC1 block for which the exhaustive search, after 8 estimates, finds another result
than the fast one, after 4. -/
example :
    (∃ o, Bc1.transformAuto env64 (.other .little fun _ => 0) (countingEst 100) false
      [0xBC, 0x44, 0x9C, 0x29, 1, 2, 3, 4] (List.replicate 9 0xAA) 8 0 = some (o, 4, .ok ⟨.v1, false⟩)) ∧
    (∃ o, Bc1.transformAuto env64 (.other .little fun _ => 0) (countingEst 100) true
      [0xBC, 0x44, 0x9C, 0x29, 1, 2, 3, 4] (List.replicate 9 0xAA) 8 0 = some (o, 8, .ok ⟨.v3, false⟩)) := by
  exact ⟨⟨_, rfl⟩, ⟨_, rfl⟩⟩

/-- C22: the third estimate fails. -/
example : ∃ o, Bc2.transformAuto env64 (.other .little fun _ => 0) (countingEst 2) true
    (List.replicate 16 0x5A) (List.replicate 16 0) 16 0 = some (o, 3, .error (.sizeEstimation 2)) :=
  ⟨_, rfl⟩

/-- C22: the allocation fails. -/
example : Bc3.transformAuto ⟨fun n => n < 4, 2 ^ 64 - 1⟩ (.other .little fun _ => 0) (countingEst 2) true
    (List.replicate 16 0x5A) (List.replicate 16 0) 16 0 = some (List.replicate 16 0, 0, .error .allocate) :=
  rfl

end Dlt.Props
