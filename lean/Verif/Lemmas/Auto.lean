import Verif.Model.Auto
import Verif.Lemmas.Bc1
import Verif.Lemmas.Bc2
import Verif.Lemmas.Bc3
/-! The search for the best settings, for any transform that always succeeds. -/

namespace Dlt.Auto

variable {S σ E : Type}

/-- On buffers satisfying `P` the transform gives `T s`, which satisfies `P` again. -/
structure Runs (P : Buf → Prop) (transform : Buf → S → Option Buf) (T : S → Buf) : Prop where
  eq : ∀ out s, P out → transform out s = some (T s)
  keep : ∀ s, P (T s)

/-- Measure the candidates in order, until the first failure. -/
def answers (measure : σ → Buf → σ × Except E Nat) (T : S → Buf) : σ → List S → σ × Except E (List Nat)
  | st, [] => (st, .ok [])
  | st, s :: rest =>
    match measure st (T s) with
    | (st, .error e) => (st, .error e)
    | (st, .ok n) =>
      match answers measure T st rest with
      | (st, .error e) => (st, .error e)
      | (st, .ok ns) => (st, .ok (n :: ns))

/-- The best candidate so far. -/
def pickBest : List (S × Nat) → S × Nat → S × Nat
  | [], b => b
  | c :: rest, b => pickBest rest (if c.2 < b.2 then c else b)

/-- What the loop returns, given the answers. -/
theorem loop_ok {P : Buf → Prop} {transform : Buf → S → Option Buf} {T : S → Buf}
    (h : Runs P transform T) (measure : σ → Buf → σ × Except E Nat) :
    ∀ (order : List S) (out : Buf) (st : σ) (best : S) (bs : Nat) (last : S) (st' : σ) (ns : List Nat),
      P out → answers measure T st order = (st', .ok ns) → ∃ out',
      loop transform measure order out st best bs last =
        some (out', st', .ok ((pickBest (order.zip ns) (best, bs)).1, (order.getLast?).getD last)) ∧
      P out' ∧ (order ≠ [] → out' = T ((order.getLast?).getD last))
  | [], out, st, best, bs, last, st', ns, hP, ha => by
    simp only [answers, Prod.mk.injEq, Except.ok.injEq] at ha
    obtain ⟨rfl, rfl⟩ := ha
    exact ⟨out, rfl, hP, fun h => absurd rfl h⟩
  | s :: rest, out, st, best, bs, last, st', ns, hP, ha => by
    simp only [answers] at ha
    cases hm : measure st (T s) with
    | mk st1 r =>
      rw [hm] at ha
      cases r with
      | error e => simp at ha
      | ok n =>
        simp only at ha
        cases hr : answers measure T st1 rest with
        | mk st2 r2 =>
          rw [hr] at ha
          cases r2 with
          | error e => simp at ha
          | ok ns2 =>
            simp only [Prod.mk.injEq, Except.ok.injEq] at ha
            obtain ⟨rfl, rfl⟩ := ha
            have hlast : ((s :: rest).getLast?).getD last = (rest.getLast?).getD s := by
              cases rest with
              | nil => rfl
              | cons a l => simp [List.getLast?_cons]
            have key : ∀ b, ∃ out', loop transform measure rest (T s) st1 b.1 b.2 s =
                some (out', st2, .ok ((pickBest (rest.zip ns2) b).1, (rest.getLast?).getD s)) ∧
                P out' ∧ out' = T ((rest.getLast?).getD s) := by
              intro b
              obtain ⟨out', h1, h2, h3⟩ := loop_ok h measure rest (T s) st1 b.1 b.2 s st2 ns2 (h.keep s) hr
              refine ⟨out', h1, h2, ?_⟩
              cases rest with
              | nil =>
                simp only [loop, Option.some.injEq, Prod.mk.injEq] at h1
                exact h1.1.symm
              | cons a l => exact h3 (by simp)
            rw [hlast]
            simp only [loop, h.eq out s hP, Option.bind_eq_bind, Option.bind_some, hm,
              List.zip_cons_cons, pickBest]
            split
            · obtain ⟨out', h1, h2, h3⟩ := key (s, n)
              exact ⟨out', h1, h2, fun _ => h3⟩
            · obtain ⟨out', h1, h2, h3⟩ := key (best, bs)
              exact ⟨out', h1, h2, fun _ => h3⟩

theorem loop_error {P : Buf → Prop} {transform : Buf → S → Option Buf} {T : S → Buf}
    (h : Runs P transform T) (measure : σ → Buf → σ × Except E Nat) :
    ∀ (order : List S) (out : Buf) (st : σ) (best : S) (bs : Nat) (last : S) (st' : σ) (e : E),
      P out → answers measure T st order = (st', .error e) → ∃ out',
      loop transform measure order out st best bs last = some (out', st', .error e) ∧ P out'
  | [], out, st, best, bs, last, st', e, hP, ha => by simp [answers] at ha
  | s :: rest, out, st, best, bs, last, st', e, hP, ha => by
    simp only [answers] at ha
    simp only [loop, h.eq out s hP, Option.bind_eq_bind, Option.bind_some]
    cases hm : measure st (T s) with
    | mk st1 r =>
      rw [hm] at ha
      cases r with
      | error e' =>
        simp only [Prod.mk.injEq, Except.error.injEq] at ha
        obtain ⟨rfl, rfl⟩ := ha
        exact ⟨_, rfl, h.keep s⟩
      | ok n =>
        simp only at ha ⊢
        cases hr : answers measure T st1 rest with
        | mk st2 r2 =>
          rw [hr] at ha
          cases r2 with
          | ok ns => simp at ha
          | error e' =>
            simp only [Prod.mk.injEq, Except.error.injEq] at ha
            obtain ⟨rfl, rfl⟩ := ha
            split
            · exact loop_error h measure rest _ _ _ _ _ _ _ (h.keep s) hr
            · exact loop_error h measure rest _ _ _ _ _ _ _ (h.keep s) hr

/-- A successful search leaves the transform with the returned settings in the buffer. -/
theorem search_ok [DecidableEq S] {P : Buf → Prop} {transform : Buf → S → Option Buf} {T : S → Buf}
    (h : Runs P transform T) (measure : σ → Buf → σ × Except E Nat) (env : Env) {order : List S} {dflt : S}
    {out : Buf} {st st' : σ} {ns : List Nat} (ho : order ≠ []) (hP : P out)
    (ha : answers measure T st order = (st', .ok ns)) :
    search env order dflt transform measure out st =
      some (T (pickBest (order.zip ns) (dflt, env.usizeMax)).1, st',
        .ok (pickBest (order.zip ns) (dflt, env.usizeMax)).1) := by
  obtain ⟨out', h1, h2, h3⟩ := loop_ok h measure order out st dflt env.usizeMax dflt st' ns hP ha
  simp only [search, h1, Option.bind_eq_bind, Option.bind_some]
  split
  · rw [h.eq _ _ h2]; rfl
  · rename_i hb
    rw [Decidable.not_not] at hb
    rw [h3 ho, hb]; rfl

theorem search_error [DecidableEq S] {P : Buf → Prop} {transform : Buf → S → Option Buf} {T : S → Buf}
    (h : Runs P transform T) (measure : σ → Buf → σ × Except E Nat) (env : Env) {order : List S} {dflt : S}
    {out : Buf} {st st' : σ} {e : E} (hP : P out)
    (ha : answers measure T st order = (st', .error e)) : ∃ out',
    search env order dflt transform measure out st = some (out', st', .error (.sizeEstimation e)) ∧ P out' := by
  obtain ⟨out', h1, h2⟩ := loop_error h measure order out st dflt env.usizeMax dflt st' e hP ha
  exact ⟨out', by simp only [search, h1, Option.bind_eq_bind, Option.bind_some]; rfl, h2⟩

theorem search_total [DecidableEq S] {P : Buf → Prop} {transform : Buf → S → Option Buf} {T : S → Buf}
    (h : Runs P transform T) (measure : σ → Buf → σ × Except E Nat) (env : Env) {order : List S} {dflt : S}
    {out : Buf} (st : σ) (ho : order ≠ []) (hP : P out) : ∃ out' st' r,
    search env order dflt transform measure out st = some (out', st', r) ∧ P out' ∧
      (∀ s, r = .ok s → out' = T s) := by
  cases ha : answers measure T st order with
  | mk st' r =>
    cases r with
    | ok ns =>
      refine ⟨_, _, _, search_ok h measure env ho hP ha, h.keep _, fun s hs => ?_⟩
      rw [Except.ok.injEq] at hs
      rw [hs]
    | error e =>
      obtain ⟨out', h1, h2⟩ := search_error h measure env (dflt := dflt) hP ha
      exact ⟨_, _, _, h1, h2, fun s hs => by simp at hs⟩

/-- Deterministic estimators answer every candidate with its cost. -/
theorem answers_det {measure : σ → Buf → σ × Except E Nat} {T : S → Buf} {cost : S → Nat}
    (hd : ∀ st s, (measure st (T s)).2 = .ok (cost s)) :
    ∀ (order : List S) (st : σ), ∃ st', answers measure T st order = (st', .ok (order.map cost))
  | [], st => ⟨st, rfl⟩
  | s :: rest, st => by
    have h1 := hd st s
    cases hm : measure st (T s) with
    | mk st1 r =>
      rw [hm] at h1
      simp only at h1
      subst h1
      obtain ⟨st2, h2⟩ := answers_det hd rest st1
      exact ⟨st2, by simp only [answers, hm, h2, List.map_cons]⟩

/-- The earliest candidate of least cost. -/
def Best (cost : S → Nat) (order : List S) (s : S) : Prop :=
  ∃ pre post, order = pre ++ s :: post ∧ (∀ x ∈ pre, cost s < cost x) ∧ ∀ x ∈ post, cost s ≤ cost x

theorem pickBest_keep (cost : S → Nat) : ∀ (order : List S) (b : S × Nat),
    ((pickBest (order.zip (order.map cost)) b) = b ∧ ∀ x ∈ order, b.2 ≤ cost x) ∨
    (∃ s, pickBest (order.zip (order.map cost)) b = (s, cost s) ∧ Best cost order s ∧ cost s < b.2)
  | [], b => .inl ⟨rfl, by simp⟩
  | c :: rest, b => by
    simp only [List.map_cons, List.zip_cons_cons, pickBest]
    by_cases hc : cost c < b.2
    · rw [if_pos hc]
      right
      rcases pickBest_keep cost rest (c, cost c) with ⟨h1, h2⟩ | ⟨s, h1, ⟨pre, post, hp, hlt, hle⟩, h3⟩
      · exact ⟨c, h1, ⟨[], rest, rfl, by simp, h2⟩, hc⟩
      · refine ⟨s, h1, ⟨c :: pre, post, by rw [hp]; rfl, ?_, hle⟩, by simp only at h3; omega⟩
        intro x hx
        rcases List.mem_cons.1 hx with rfl | hx
        · exact h3
        · exact hlt x hx
    · rw [if_neg hc]
      rcases pickBest_keep cost rest b with ⟨h1, h2⟩ | ⟨s, h1, ⟨pre, post, hp, hlt, hle⟩, h3⟩
      · left
        refine ⟨h1, fun x hx => ?_⟩
        rcases List.mem_cons.1 hx with rfl | hx
        · omega
        · exact h2 x hx
      · right
        refine ⟨s, h1, ⟨c :: pre, post, by rw [hp]; rfl, ?_, hle⟩, h3⟩
        intro x hx
        rcases List.mem_cons.1 hx with rfl | hx
        · omega
        · exact hlt x hx

theorem search_best [DecidableEq S] {P : Buf → Prop} {transform : Buf → S → Option Buf} {T : S → Buf}
    (h : Runs P transform T) {measure : σ → Buf → σ × Except E Nat} (env : Env) {order : List S} {dflt : S}
    {out : Buf} (st : σ) {cost : S → Nat} (ho : order ≠ []) (hP : P out)
    (hd : ∀ st s, (measure st (T s)).2 = .ok (cost s)) (hlt : ∃ s ∈ order, cost s < env.usizeMax) :
    ∃ st' s, search env order dflt transform measure out st = some (T s, st', .ok s) ∧ Best cost order s := by
  obtain ⟨st', ha⟩ := answers_det hd order st
  have hs := search_ok h measure env (dflt := dflt) ho hP ha
  rcases pickBest_keep cost order (dflt, env.usizeMax) with ⟨_, h2⟩ | ⟨s, h1, h2, h3⟩
  · obtain ⟨s, hm, hl⟩ := hlt
    have := h2 s hm
    simp only at this; omega
  · rw [h1] at hs
    exact ⟨st', s, hs, h2⟩

/-- Without an estimate below `usize::MAX` the default settings are kept. -/
theorem search_default [DecidableEq S] {P : Buf → Prop} {transform : Buf → S → Option Buf} {T : S → Buf}
    (h : Runs P transform T) {measure : σ → Buf → σ × Except E Nat} (env : Env) {order : List S} {dflt : S}
    {out : Buf} (st : σ) {cost : S → Nat} (ho : order ≠ []) (hP : P out)
    (hd : ∀ st s, (measure st (T s)).2 = .ok (cost s)) (hge : ∀ s ∈ order, env.usizeMax ≤ cost s) :
    ∃ st', search env order dflt transform measure out st = some (T dflt, st', .ok dflt) := by
  obtain ⟨st', ha⟩ := answers_det hd order st
  have hs := search_ok h measure env (dflt := dflt) ho hP ha
  rcases pickBest_keep cost order (dflt, env.usizeMax) with ⟨h1, _⟩ | ⟨s, _, ⟨pre, post, hp, _, _⟩, h3⟩
  · rw [h1] at hs; exact ⟨st', hs⟩
  · have := hge s (by rw [hp]; simp)
    simp only at h3; omega

/-- A transform that implements a length-preserving function can be run again and again. -/
theorem runs_of_implements {B : Nat} {F : S → Buf → Buf → Nat → Option Buf} {f : S → Buf → Buf}
    (h : ∀ s, Implements B (F s) (f s)) {data out : Buf} (hB : data.length % B = 0)
    (ho : data.length ≤ out.length) :
    Runs (fun o => o.length = out.length ∧ o.drop data.length = out.drop data.length)
      (fun o s => F s data o data.length) (fun s => f s data ++ out.drop data.length) where
  eq o s hP := by
    rw [(h s data o hB (by omega)).2, hP.2]
  keep s := by
    have := (h s data out hB ho).1
    constructor
    · simp [this]; omega
    · rw [List.drop_left' this]

end Dlt.Auto
