import Verif.Props.DebugAsserts
/-!
# C55: exactly when the automatic transforms panic in debug builds
-/

namespace Dlt.Props

variable {S σ E : Type}

/-- The estimator, asked `k` times for the size of nothing, answers each time. -/
def AnswersEmpty (est : Estimator σ E) (comp : Nat) : Nat → σ → Prop
  | 0, _ => True
  | k + 1, st => (∃ n, (est.estimate st [] comp).2 = .ok n) ∧ AnswersEmpty est comp k (est.estimate st [] comp).1

/-- The search for the best settings of an empty texture gets as far as the `k`-th question: the size of the scratch buffer is known, the buffer can
be had, and the estimator has answered `k` times. -/
def GetsPast (env : Env) (est : Estimator σ E) (k : Nat) (st : σ) : Prop :=
  ∃ n, (est.maxSize st 0).2 = .ok n ∧ (n = 0 ∨ env.canAlloc n = true) ∧ AnswersEmpty est n k (est.maxSize st 0).1

/-- The same for a measurement of any kind. -/
def AllOk (meas : σ → σ × Except E Nat) : Nat → σ → Prop
  | 0, _ => True
  | k + 1, st => (∃ n, (meas st).2 = .ok n) ∧ AllOk meas k (meas st).1

/-- The loop over candidates with one that panics. -/
theorem loop_reaches (bad : S → Bool) (meas : σ → σ × Except E Nat) {b : S} (hb : bad b = true) (post : List S) :
    ∀ (pre : List S), (∀ s ∈ pre, bad s = false) → ∀ (out : Buf) (st : σ) (best : S) (bs : Nat) (last : S),
      (AllOk meas pre.length st → Auto.loop (fun out s => if bad s = true then none else some out) (fun st _ => meas st)
        (pre ++ b :: post) out st best bs last = none) ∧
      (¬ AllOk meas pre.length st → ∃ st' e, Auto.loop (fun out s => if bad s = true then none else some out) (fun st _ => meas st)
        (pre ++ b :: post) out st best bs last = some (out, st', .error e) ∧
        Auto.loop (fun out _ => some out) (fun st _ => meas st) (pre ++ b :: post) out st best bs last = some (out, st', .error e))
  | [], _, out, st, best, bs, last => by
    refine ⟨fun _ => ?_, fun h => absurd trivial h⟩
    simp only [List.nil_append, Auto.loop, if_pos hb]
    rfl
  | s :: pre, hpre, out, st, best, bs, last => by
    have hs : ¬ bad s = true := by rw [hpre s (by simp)]; simp
    have ih := loop_reaches bad meas hb post pre (fun s h => hpre s (by simp [h]))
    simp only [List.cons_append, Auto.loop, if_neg hs, Option.bind_eq_bind, Option.bind_some, List.length_cons, AllOk]
    rcases hq : meas st with ⟨st', r⟩
    cases r with
    | error e =>
      refine ⟨fun h => ?_, fun _ => ⟨_, _, rfl, rfl⟩⟩
      obtain ⟨⟨n, hn⟩, _⟩ := h
      exact nomatch hn
    | ok n =>
      dsimp only
      have hx : (∃ k, (Except.ok n : Except E Nat) = .ok k) := ⟨n, rfl⟩
      simp only [hx, true_and]
      split
      · exact ih out st' s n s
      · exact ih out st' best bs s

theorem search_reaches [DecidableEq S] (bad : S → Bool) (meas : σ → σ × Except E Nat) (env : Env) (dflt : S) {order pre post : List S} {b : S}
    (ho : order = pre ++ b :: post) (hb : bad b = true) (hpre : ∀ s ∈ pre, bad s = false) (out : Buf) (st : σ) :
    (AllOk meas pre.length st → Auto.search env order dflt (fun out s => if bad s = true then none else some out) (fun st _ => meas st)
      out st = none) ∧
    (¬ AllOk meas pre.length st → Auto.search env order dflt (fun out s => if bad s = true then none else some out) (fun st _ => meas st) out st =
      Auto.search env order dflt (fun out _ => some out) (fun st _ => meas st) out st) := by
  subst ho
  obtain ⟨h1, h2⟩ := loop_reaches bad meas hb post pre hpre out st dflt env.usizeMax dflt
  refine ⟨fun h => ?_, fun h => ?_⟩
  · unfold Auto.search
    rw [h1 h]
    rfl
  · obtain ⟨st', e, e1, e2⟩ := h2 h
    unfold Auto.search
    rw [e1, e2]
    rfl

theorem prepare_reaches [DecidableEq S] (bad : S → Bool) (meas : Nat → σ → σ × Except E Nat) (env : Env) (est : Estimator σ E) (dflt : S)
    {order pre post : List S} {b : S}
    (ho : order = pre ++ b :: post) (hb : bad b = true) (hpre : ∀ s ∈ pre, bad s = false) (k : Nat)
    (hk : ∀ comp st, AllOk (meas comp) pre.length st ↔ AnswersEmpty est comp k st) (out : Buf) (st : σ) :
    (GetsPast env est k st → Auto.prepare env est 0 out st (fun comp st =>
      Auto.search env order dflt (fun out s => if bad s = true then none else some out) (fun st _ => meas comp st) out st) = none) ∧
    (¬ GetsPast env est k st → Auto.prepare env est 0 out st (fun comp st =>
      Auto.search env order dflt (fun out s => if bad s = true then none else some out) (fun st _ => meas comp st) out st) =
      Auto.prepare env est 0 out st (fun comp st =>
        Auto.search env order dflt (fun out _ => some out) (fun st _ => meas comp st) out st)) := by
  unfold GetsPast Auto.prepare
  rcases hq : est.maxSize st 0 with ⟨st', r⟩
  cases r with
  | error e =>
    refine ⟨fun h => ?_, fun _ => rfl⟩
    obtain ⟨n, hn, _⟩ := h
    exact nomatch hn
  | ok n =>
    dsimp only
    obtain ⟨h1, h2⟩ := search_reaches bad (meas n) env dflt ho hb hpre out st'
    rw [hk] at h1 h2
    by_cases h0 : n = 0
    · subst h0
      rw [if_pos rfl, if_pos rfl]
      refine ⟨fun h => ?_, fun h => h2 fun ha => h ⟨0, rfl, Or.inl rfl, ha⟩⟩
      obtain ⟨k, hk, _, ha⟩ := h
      cases hk
      exact h1 ha
    · rw [if_neg h0, if_neg h0]
      by_cases hc : env.canAlloc n = true
      · rw [if_pos hc, if_pos hc]
        refine ⟨fun h => ?_, fun h => h2 fun ha => h ⟨n, rfl, Or.inr hc, ha⟩⟩
        obtain ⟨k, hk, _, ha⟩ := h
        cases hk
        exact h1 ha
      · rw [if_neg hc, if_neg hc]
        refine ⟨fun h => ?_, fun _ => rfl⟩
        obtain ⟨k, hk, ha, _⟩ := h
        cases hk
        rcases ha with ha | ha
        · exact absurd ha h0
        · exact absurd ha hc

/-- Nothing is moved when there is nothing to transform. -/
theorem nothing_moves (m : Machine) (out : Buf) :
    (∀ s, Bc1.transformWithSettings m [] out 0 s = some out) ∧ (∀ s, Bc3.transformWithSettings m [] out 0 s = some out) := by
  refine ⟨fun s => ?_, fun s => ?_⟩
  · obtain ⟨hl, e⟩ := Bc1.transform_impl m s [] out rfl (Nat.zero_le _)
    simp only [List.length_nil, List.drop_zero] at e hl
    rw [e, List.length_eq_zero_iff.1 hl]
    rfl
  · obtain ⟨hl, e⟩ := Bc3.transform_impl m s [] out rfl (Nat.zero_le _)
    simp only [List.length_nil, List.drop_zero] at e hl
    rw [e, List.length_eq_zero_iff.1 hl]
    rfl

/-- One measurement of BC3 is two questions. -/
theorem two_questions (env : Env) (est : Estimator σ E) (comp : Nat) (out : Buf) : ∀ (k : Nat) (st : σ),
    AllOk (fun st => Bc3.measure env est 0 comp st out) k st ↔ AnswersEmpty est comp (2 * k) st
  | 0, _ => Iff.rfl
  | k + 1, st => by
    have ih := two_questions env est comp out k
    have e0 : 2 * (k + 1) = 2 * k + 1 + 1 := by omega
    rw [e0, AllOk, AnswersEmpty, AnswersEmpty, ih]
    have s0 : ∀ n, slice out n 0 = [] := fun n => by simp [slice]
    unfold Bc3.measure
    simp only [Nat.zero_div, Nat.zero_mul, s0]
    rcases est.estimate st [] comp with ⟨st1, r1⟩
    cases r1 with
    | error e => simp
    | ok a =>
      simp only []
      rcases est.estimate st1 [] comp with ⟨st2, r2⟩
      cases r2 with
      | error e => simp
      | ok b => simp

open Classical in
/-- **C55**, exactly, for the automatic choice of BC1: a debug build panics when the texture is empty, the machine has AVX-512 BW, and the search gets
past the one (with all candidates: two) measurements before the first candidate with split colours.  Otherwise it does what the release build does. -/
theorem C55_auto_exact (env : Env) (m : Machine) (est : Estimator σ E) (useAll : Bool) (input output : Buf) (st : σ) :
    Bc1.transformAutoSafeDebug env m est useAll input output st =
      if input = [] ∧ (∃ f, m = .x86 f ∧ f.avx512bw = true) ∧ GetsPast env est (if useAll then 2 else 1) st then none
      else Bc1.transformAutoSafe env m est useAll input output st := by
  by_cases h : input ≠ [] ∨ ∀ f, m = .x86 f → f.avx512bw = false
  · rw [(C55_auto_same_partial env m est useAll input output st h).1, if_neg]
    rintro ⟨a, ⟨f, b, c⟩, _⟩
    rcases h with h | h
    · exact h a
    · rw [h f b] at c; exact nomatch c
  · have h1 : input = [] := Classical.byContradiction fun hc => h (Or.inl hc)
    have h2 : ∃ f, m = .x86 f ∧ f.avx512bw = true := Classical.byContradiction fun hc => h (Or.inr fun f hf => by
      cases hb : f.avx512bw with
      | false => rfl
      | true => exact absurd ⟨f, hf, hb⟩ hc)
    subst h1
    obtain ⟨f, rfl, hf⟩ := h2
    have ht : (fun (out : Buf) (s : ColourSettings) => if Bc1.transformAsserts (.x86 f) s ∧ 0 / 8 = 0 then none
        else Bc1.transformWithSettings (.x86 f) [] out 0 s) = fun out s => if s.split = true then none else some out := by
      funext out s
      rw [(nothing_moves _ _).1]
      simp [Bc1.transformAsserts, hf]
    have ht' : (fun (out : Buf) (s : ColourSettings) => Bc1.transformWithSettings (.x86 f) [] out 0 s) = fun out _ => some out := by
      funext out s
      exact (nothing_moves _ _).1 s
    have hm : ∀ comp, Bc1.measure env est 0 comp = fun st _ => est.estimate st [] comp := by
      intro comp
      funext st out
      simp [Bc1.measure, slice]
    have hk : ∀ comp k (st : σ), AllOk (fun st => est.estimate st [] comp) k st ↔ AnswersEmpty est comp k st := by
      intro comp k
      induction k with
      | zero => intro st; exact Iff.rfl
      | succ k ih => intro st; rw [AllOk, AnswersEmpty, ih]
    have key : ∃ pre post, Bc1.testOrder useAll = pre ++ ⟨.none, true⟩ :: post ∧ (∀ s ∈ pre, ColourSettings.split s = false) ∧
        pre.length = if useAll then 2 else 1 := by
      cases useAll
      · exact ⟨[⟨.none, false⟩], _, rfl, by simp, rfl⟩
      · exact ⟨[⟨.v2, false⟩, ⟨.none, false⟩], _, rfl, by simp, rfl⟩
    obtain ⟨pre, post, ho, hpre, hl⟩ := key
    obtain ⟨p1, p2⟩ := prepare_reaches (fun s : ColourSettings => s.split) (fun comp st => est.estimate st [] comp) env est Bc1.defaultSettings ho rfl hpre
      (if useAll then 2 else 1) (fun comp st => by rw [hl]; exact hk comp _ st) output st
    have a1 : Bc1.transformAutoDebug env (.x86 f) est useAll [] output 0 st = Auto.prepare env est 0 output st (fun comp st =>
        Auto.search env (Bc1.testOrder useAll) Bc1.defaultSettings (fun out s => if s.split = true then none else some out)
          (fun st _ => est.estimate st [] comp) output st) := by
      unfold Bc1.transformAutoDebug
      rw [ht]
      exact congrArg (Auto.prepare env est 0 output st) (funext fun comp => funext fun st => by rw [hm comp])
    have a2 : Bc1.transformAuto env (.x86 f) est useAll [] output 0 st = Auto.prepare env est 0 output st (fun comp st =>
        Auto.search env (Bc1.testOrder useAll) Bc1.defaultSettings (fun out _ => some out)
          (fun st _ => est.estimate st [] comp) output st) := by
      unfold Bc1.transformAuto
      rw [ht']
      exact congrArg (Auto.prepare env est 0 output st) (funext fun comp => funext fun st => by rw [hm comp])
    have d1 : Bc1.transformAutoSafeDebug env (.x86 f) est useAll [] output st =
        (Bc1.transformAutoDebug env (.x86 f) est useAll [] output 0 st).bind
          fun r => some (r.1, r.2.1, r.2.2.mapError .determineBest) := by
      unfold Bc1.transformAutoSafeDebug
      rw [if_neg (by simp), if_neg (by simp)]
      rfl
    have d2 : Bc1.transformAutoSafe env (.x86 f) est useAll [] output st =
        (Bc1.transformAuto env (.x86 f) est useAll [] output 0 st).bind
          fun r => some (r.1, r.2.1, r.2.2.mapError .determineBest) := by
      unfold Bc1.transformAutoSafe
      rw [if_neg (by simp), if_neg (by simp)]
      rfl
    by_cases hg : GetsPast env est (if useAll then 2 else 1) st
    · rw [if_pos ⟨rfl, ⟨f, rfl, hf⟩, hg⟩, d1, a1, p1 hg]
      rfl
    · rw [if_neg (fun hc => hg hc.2.2), d1, d2, a1, a2, p2 hg]

open Classical in
/-- **C55**, exactly, for the automatic choice of BC3: the candidate that panics, with AVX-512 VBMI, is the third (with all candidates: the eleventh),
and each one before asks twice. -/
theorem C55_bc3_auto_exact (env : Env) (m : Machine) (est : Estimator σ E) (useAll : Bool) (input output : Buf) (st : σ) :
    Bc3.transformAutoSafeDebug env m est useAll input output st =
      if input = [] ∧ (∃ f, m = .x86 f ∧ f.avx512vbmi = true) ∧ GetsPast env est (if useAll then 20 else 4) st then none
      else Bc3.transformAutoSafe env m est useAll input output st := by
  by_cases h : input ≠ [] ∨ ∀ f, m = .x86 f → f.avx512vbmi = false
  · rw [(C55_bc3_auto_same_partial env m est useAll input output st h).1, if_neg]
    rintro ⟨a, ⟨f, b, c⟩, _⟩
    rcases h with h | h
    · exact h a
    · rw [h f b] at c; exact nomatch c
  · have h1 : input = [] := Classical.byContradiction fun hc => h (Or.inl hc)
    have h2 : ∃ f, m = .x86 f ∧ f.avx512vbmi = true := Classical.byContradiction fun hc => h (Or.inr fun f hf => by
      cases hb : f.avx512vbmi with
      | false => rfl
      | true => exact absurd ⟨f, hf, hb⟩ hc)
    subst h1
    obtain ⟨f, rfl, hf⟩ := h2
    have ht : (fun (out : Buf) (s : Bc3.Settings) => if Bc3.transformAsserts (.x86 f) s ∧ 0 / 16 = 0 then none
        else Bc3.transformWithSettings (.x86 f) [] out 0 s) = fun out s => if (s.splitAlpha && !s.splitColour && s.decorr = .none) = true then none else some out := by
      funext out s
      rw [(nothing_moves _ _).2]
      simp [Bc3.transformAsserts, hf]
    have ht' : (fun (out : Buf) (s : Bc3.Settings) => Bc3.transformWithSettings (.x86 f) [] out 0 s) = fun out _ => some out := by
      funext out s
      exact (nothing_moves _ _).2 s
    have hm : ∀ comp, Bc3.measure env est 0 comp = fun st _ => Bc3.measure env est 0 comp st [] := by
      intro comp
      funext st out
      simp [Bc3.measure, slice]
    have key : ∃ pre post, Bc3.testOrder useAll = pre ++ ⟨.none, true, false⟩ :: post ∧
        (∀ s ∈ pre, (s.splitAlpha && !s.splitColour && s.decorr = .none) = false) ∧
        2 * pre.length = if useAll then 20 else 4 := by
      cases useAll
      · exact ⟨Bc3.fastOrder.take 2, Bc3.fastOrder.drop 3, rfl, by decide, rfl⟩
      · exact ⟨Bc3.fullOrder.take 10, Bc3.fullOrder.drop 11, rfl, by decide, rfl⟩
    obtain ⟨pre, post, ho, hpre, hl⟩ := key
    obtain ⟨p1, p2⟩ := prepare_reaches (fun s : Bc3.Settings => (s.splitAlpha && !s.splitColour && s.decorr = .none))
      (fun comp st => Bc3.measure env est 0 comp st []) env est Bc3.defaultSettings ho rfl hpre
      (if useAll then 20 else 4) (fun comp st => by rw [← hl]; exact two_questions env est comp [] _ st) output st
    have a1 : Bc3.transformAutoDebug env (.x86 f) est useAll [] output 0 st = Auto.prepare env est 0 output st (fun comp st =>
        Auto.search env (Bc3.testOrder useAll) Bc3.defaultSettings (fun out s => if (s.splitAlpha && !s.splitColour && s.decorr = .none) = true then none else some out)
          (fun st _ => Bc3.measure env est 0 comp st []) output st) := by
      unfold Bc3.transformAutoDebug
      rw [ht]
      exact congrArg (Auto.prepare env est 0 output st) (funext fun comp => funext fun st => by rw [hm comp])
    have a2 : Bc3.transformAuto env (.x86 f) est useAll [] output 0 st = Auto.prepare env est 0 output st (fun comp st =>
        Auto.search env (Bc3.testOrder useAll) Bc3.defaultSettings (fun out _ => some out)
          (fun st _ => Bc3.measure env est 0 comp st []) output st) := by
      unfold Bc3.transformAuto
      rw [ht']
      exact congrArg (Auto.prepare env est 0 output st) (funext fun comp => funext fun st => by rw [hm comp])
    have d1 : Bc3.transformAutoSafeDebug env (.x86 f) est useAll [] output st =
        (Bc3.transformAutoDebug env (.x86 f) est useAll [] output 0 st).bind
          fun r => some (r.1, r.2.1, r.2.2.mapError .determineBest) := by
      unfold Bc3.transformAutoSafeDebug
      rw [if_neg (by simp), if_neg (by simp)]
      rfl
    have d2 : Bc3.transformAutoSafe env (.x86 f) est useAll [] output st =
        (Bc3.transformAuto env (.x86 f) est useAll [] output 0 st).bind
          fun r => some (r.1, r.2.1, r.2.2.mapError .determineBest) := by
      unfold Bc3.transformAutoSafe
      rw [if_neg (by simp), if_neg (by simp)]
      rfl
    by_cases hg : GetsPast env est (if useAll then 20 else 4) st
    · rw [if_pos ⟨rfl, ⟨f, rfl, hf⟩, hg⟩, d1, a1, p1 hg]
      rfl
    · rw [if_neg (fun hc => hg hc.2.2), d1, d2, a1, a2, p2 hg]

/-- An estimator that answers `1` once and fails from then on: the search over the four candidates panics at the second one, the search over all eight
reports the failure instead. -/
def onceThenFails : Estimator Nat Unit where
  maxSize st _ := (st, .ok 0)
  estimate st _ _ := (st + 1, if st = 0 then .ok 1 else .error ())

example :
    Bc1.transformAutoSafeDebug ⟨fun _ => false, 2 ^ 64 - 1⟩ (.x86 ⟨true, true, true, true, true, true, fun _ => 0⟩) onceThenFails false [] [] 0 = none ∧
    Bc1.transformAutoSafeDebug ⟨fun _ => false, 2 ^ 64 - 1⟩ (.x86 ⟨true, true, true, true, true, true, fun _ => 0⟩) onceThenFails true [] [] 0 =
      some ([], 2, .error (.determineBest (.sizeEstimation ()))) := by
  refine ⟨?_, rfl⟩
  rw [C55_auto_exact, if_pos]
  exact ⟨rfl, ⟨_, rfl, rfl⟩, 0, rfl, Or.inl rfl, ⟨1, rfl⟩, trivial⟩

end Dlt.Props
