import Verif.Props.Auto
import Verif.Props.NormTransform
/-!
# C89: the automatic transforms use the estimated sizes only to compare them

A user who rescales an estimator (other units, a constant overhead per measurement, another model with the same order) gets the same
settings and the same bytes, as long as the order of the answers stays the same.  For BC3 the sizes of two parts are added before they are
compared: there the order of the sums has to stay.
-/

namespace Dlt

/-- The estimator `est` with each answer `n` replaced by `f n`. -/
def Estimator.rescale {σ E : Type} (est : Estimator σ E) (f : Nat → Nat) : Estimator σ E where
  maxSize := est.maxSize
  estimate st b k := match est.estimate st b k with
    | (st, .error e) => (st, .error e)
    | (st, .ok n) => (st, .ok (f n))

namespace Auto

variable {S σ E : Type}

/-- The measurements `m'` fail as `m` does and have sizes related to those of `m`. -/
def Mapped (R : Nat → Nat → Prop) (m m' : σ → Buf → σ × Except E Nat) : Prop :=
  ∀ st b, (∃ st' e, m st b = (st', .error e) ∧ m' st b = (st', .error e)) ∨
    ∃ st' n n', m st b = (st', .ok n) ∧ m' st b = (st', .ok n') ∧ R n n'

theorem loop_rescale (transform : Buf → S → Option Buf) {R : Nat → Nat → Prop} {m m' : σ → Buf → σ × Except E Nat} (hm : Mapped R m m')
    (hf : ∀ a a' b b', R a a' → R b b' → (a' < b' ↔ a < b)) :
    ∀ (order : List S) (out : Buf) (st : σ) (best : S) (bs bs' : Nat) (last : S), (∀ a a', R a a' → (a' < bs' ↔ a < bs)) →
      loop transform m' order out st best bs' last = loop transform m order out st best bs last
  | [], _, _, _, _, _, _, _ => rfl
  | s :: rest, out, st, best, bs, bs', last, hb => by
    simp only [loop]
    refine congrArg (Option.bind _) (funext fun o => ?_)
    rcases hm st o with ⟨st', e, h1, h2⟩ | ⟨st', n, n', h1, h2, hn⟩
    · rw [h1, h2]
    · rw [h1, h2]
      dsimp only
      by_cases h : n < bs
      · rw [if_pos h, if_pos ((hb _ _ hn).2 h)]
        exact loop_rescale transform hm hf rest _ _ _ _ _ _ fun a a' ha => hf a a' n n' ha hn
      · rw [if_neg h, if_neg (fun c => h ((hb _ _ hn).1 c))]
        exact loop_rescale transform hm hf rest _ _ _ _ _ _ hb

theorem search_rescale [DecidableEq S] (env : Env) (order : List S) (dflt : S) (transform : Buf → S → Option Buf)
    {R : Nat → Nat → Prop} {m m' : σ → Buf → σ × Except E Nat} (hm : Mapped R m m')
    (hf : ∀ a a' b b', R a a' → R b b' → (a' < b' ↔ a < b))
    (hb : ∀ a a', R a a' → (a' < env.usizeMax ↔ a < env.usizeMax)) (out : Buf) (st : σ) :
    search env order dflt transform m' out st = search env order dflt transform m out st := by
  unfold search
  rw [loop_rescale transform hm hf order out st dflt env.usizeMax env.usizeMax dflt hb]

theorem prepare_congr (env : Env) (est est' : Estimator σ E) (he : est'.maxSize = est.maxSize) (len : Nat) (out : Buf) (st : σ)
    {body body' : Nat → σ → Option (Buf × σ × Except (DetermineBestError E) S)} (h : ∀ k st, body' k st = body k st) :
    prepare env est' len out st body' = prepare env est len out st body := by
  rw [show body' = body from funext fun k => funext fun st => h k st]
  unfold prepare
  rw [he]

end Auto

namespace Props

variable {σ E : Type}

/-- The sizes that the estimator may answer lie in `A`. -/
def AnswersIn (A : Nat → Prop) (est : Estimator σ E) : Prop := ∀ st b k n, (est.estimate st b k).2 = .ok n → A n

/-- `f` keeps the order of the sizes in `A` and their comparison with `usize::MAX`, the value that the searches start with. -/
def KeepsOrder (A : Nat → Prop) (f : Nat → Nat) (max : Nat) : Prop :=
  (∀ a b, A a → A b → (f a < f b ↔ a < b)) ∧ ∀ a, A a → (f a < max ↔ a < max)

/-- `f` keeps the order of the sums of two sizes in `A`; all sums are smaller than `usize::MAX`. -/
def KeepsSums (A : Nat → Prop) (f : Nat → Nat) (max : Nat) : Prop :=
  (∀ a b c d, A a → A b → A c → A d → (f a + f b < f c + f d ↔ a + b < c + d)) ∧
    ∀ a b, A a → A b → a + b < max ∧ f a + f b < max

theorem rescale_cases {A : Nat → Prop} {est : Estimator σ E} (hA : AnswersIn A est) (f : Nat → Nat) (st : σ) (b : Buf) (k : Nat) :
    (∃ st' e, est.estimate st b k = (st', .error e) ∧ (est.rescale f).estimate st b k = (st', .error e)) ∨
      ∃ st' n, est.estimate st b k = (st', .ok n) ∧ (est.rescale f).estimate st b k = (st', .ok (f n)) ∧ A n := by
  have hA := hA st b k
  simp only [Estimator.rescale]
  rcases h : est.estimate st b k with ⟨st', e | n⟩
  · exact .inl ⟨_, _, rfl, rfl⟩
  · exact .inr ⟨_, _, rfl, rfl, hA n (by rw [h])⟩

/-- A size and the rescaled one. -/
def Scaled (A : Nat → Prop) (f : Nat → Nat) (n n' : Nat) : Prop := A n ∧ n' = f n

/-- A sum of two sizes and the sum of the rescaled ones. -/
def ScaledSum (A : Nat → Prop) (f : Nat → Nat) (n n' : Nat) : Prop := ∃ a b, A a ∧ A b ∧ n = a + b ∧ n' = f a + f b

theorem mapped_one {A : Nat → Prop} {est : Estimator σ E} (hA : AnswersIn A est) (f : Nat → Nat) (o n k : Nat) :
    Auto.Mapped (Scaled A f) (fun st b => est.estimate st (slice b o n) k) (fun st b => (est.rescale f).estimate st (slice b o n) k) := by
  intro st b
  rcases rescale_cases hA f st (slice b o n) k with ⟨st', e, h1, h2⟩ | ⟨st', n', h1, h2, h3⟩
  · exact .inl ⟨st', e, h1, h2⟩
  · exact .inr ⟨st', n', _, h1, h2, h3, rfl⟩

theorem mapped_two {A : Nat → Prop} {env : Env} {est : Estimator σ E} {f : Nat → Nat} (hA : AnswersIn A est)
    (hf : KeepsSums A f env.usizeMax) (len k : Nat) :
    Auto.Mapped (ScaledSum A f) (Bc3.measure env est len k) (Bc3.measure env (est.rescale f) len k) := by
  intro st b
  simp only [Bc3.measure]
  rcases rescale_cases hA f st (slice b 0 (len / 16 * 2)) k with ⟨st', e, h1, h2⟩ | ⟨st', x, h1, h2, h3⟩
  · rw [h1, h2]
    exact .inl ⟨_, _, rfl, rfl⟩
  · rw [h1, h2]
    dsimp only
    rcases rescale_cases hA f st' (slice b (len / 2) (len / 16 * 4)) k with ⟨st'', e, h1, h2⟩ | ⟨st'', y, h4, h5, h6⟩
    · rw [h1, h2]
      exact .inl ⟨_, _, rfl, rfl⟩
    · rw [h4, h5]
      obtain ⟨h7, h8⟩ := hf.2 x y h3 h6
      exact .inr ⟨_, _, _, rfl, rfl, x, y, h3, h6, Nat.mod_eq_of_lt (by omega), Nat.mod_eq_of_lt (by omega)⟩

theorem KeepsOrder.less {A : Nat → Prop} {f : Nat → Nat} {max : Nat} (hf : KeepsOrder A f max) (a a' b b' : Nat) (ha : Scaled A f a a')
    (hb : Scaled A f b b') : a' < b' ↔ a < b := by
  obtain ⟨ha, rfl⟩ := ha
  obtain ⟨hb, rfl⟩ := hb
  exact hf.1 a b ha hb

theorem KeepsOrder.start {A : Nat → Prop} {f : Nat → Nat} {max : Nat} (hf : KeepsOrder A f max) (a a' : Nat) (ha : Scaled A f a a') :
    a' < max ↔ a < max := by
  obtain ⟨ha, rfl⟩ := ha
  exact hf.2 a ha

/-- **C89**, BC1: the automatic transform does the same with the rescaled estimator. -/
theorem C89_bc1 (env : Env) (m : Machine) (est : Estimator σ E) (A : Nat → Prop) (f : Nat → Nat) (hA : AnswersIn A est)
    (hf : KeepsOrder A f env.usizeMax) (useAll : Bool) (inp out : Buf) (len : Nat) (st : σ) :
    Bc1.transformAuto env m (est.rescale f) useAll inp out len st = Bc1.transformAuto env m est useAll inp out len st :=
  Auto.prepare_congr env est (est.rescale f) rfl _ out st fun k st =>
    Auto.search_rescale env _ _ _ (mapped_one hA f 0 (len / 2) k) hf.less hf.start out st

/-- **C89**, BC2. -/
theorem C89_bc2 (env : Env) (m : Machine) (est : Estimator σ E) (A : Nat → Prop) (f : Nat → Nat) (hA : AnswersIn A est)
    (hf : KeepsOrder A f env.usizeMax) (useAll : Bool) (inp out : Buf) (len : Nat) (st : σ) :
    Bc2.transformAuto env m (est.rescale f) useAll inp out len st = Bc2.transformAuto env m est useAll inp out len st :=
  Auto.prepare_congr env est (est.rescale f) rfl _ out st fun k st =>
    Auto.search_rescale env _ _ _ (mapped_one hA f (len / 2) (len / 4) k) hf.less hf.start out st

/-- **C89**, BC3: here the order of the sums counts. -/
theorem C89_bc3 (env : Env) (m : Machine) (est : Estimator σ E) (A : Nat → Prop) (f : Nat → Nat) (hA : AnswersIn A est)
    (hf : KeepsSums A f env.usizeMax) (useAll : Bool) (inp out : Buf) (len : Nat) (st : σ) :
    Bc3.transformAuto env m (est.rescale f) useAll inp out len st = Bc3.transformAuto env m est useAll inp out len st := by
  refine Auto.prepare_congr env est (est.rescale f) rfl _ out st fun k st =>
    Auto.search_rescale env _ _ _ (mapped_two hA hf len k) ?_ ?_ out st
  · rintro _ _ _ _ ⟨a, b, ha, hb, rfl, rfl⟩ ⟨c, d, hc, hd, rfl, rfl⟩
    exact hf.1 a b c d ha hb hc hd
  · rintro _ _ ⟨a, b, ha, hb, rfl, rfl⟩
    obtain ⟨h1, h2⟩ := hf.2 a b ha hb
    exact ⟨fun _ => h1, fun _ => h2⟩

open Norm Norm.Bc1 in
theorem testLoop_rescale {A : Nat → Prop} {est : Estimator σ E} {f : Nat → Nat} (hA : AnswersIn A est)
    (hf : ∀ a b, A a → A b → (f a < f b ↔ a < b)) (m : Machine) (len comp : Nat) :
    ∀ (cs : List (Details × Buf)) (work : Buf) (st : σ) (best : Details) (bs bs' : Nat), (∀ a, A a → (f a < bs' ↔ a < bs)) →
      testLoop m (est.rescale f) len comp cs work st best bs' = testLoop m est len comp cs work st best bs
  | [], _, _, _, _, _, _ => rfl
  | (cur, input) :: rest, work, st, best, bs, bs', hb => by
    simp only [testLoop]
    refine congrArg (Option.bind _) (funext fun o => ?_)
    rcases rescale_cases hA f st (slice o 0 (len / 2)) comp with ⟨st', e, h1, h2⟩ | ⟨st', n, h1, h2, hn⟩
    · rw [h1, h2]
      exact testLoop_rescale hA hf m len comp rest _ _ _ _ _ hb
    · rw [h1, h2]
      dsimp only
      by_cases h : n < bs
      · rw [if_pos h, if_pos ((hb _ hn).2 h)]
        exact testLoop_rescale hA hf m len comp rest _ _ _ _ _ fun a ha => hf a n ha hn
      · rw [if_neg h, if_neg (fun c => h ((hb _ hn).1 c))]
        exact testLoop_rescale hA hf m len comp rest _ _ _ _ _ hb

open Norm Norm.Bc1 in
theorem autoBody_rescale (h : Heap) {A : Nat → Prop} {est : Estimator σ E} {f : Nat → Nat} (hA : AnswersIn A est)
    (hf : KeepsOrder A f h.usizeMax) (m : Machine) (useAll : Bool) (inp out : Buf) (len comp : Nat) (st : σ) :
    autoBody h m (est.rescale f) useAll inp out len comp st = autoBody h m est useAll inp out len comp st := by
  unfold autoBody
  simp only [testLoop_rescale hA hf.1 m len comp _ _ _ _ h.usizeMax h.usizeMax hf.2,
    C89_bc1 ⟨h.canAlloc 8, h.usizeMax⟩ m est A f hA hf]

/-- **C89**, BC1 with normalization. -/
theorem C89_bc1_normalize (h : Norm.Bc1.Heap) (m : Machine) (est : Estimator σ E) (A : Nat → Prop) (f : Nat → Nat)
    (hA : AnswersIn A est) (hf : KeepsOrder A f h.usizeMax) (useAll : Bool) (inp out : Buf) (len : Nat) (st : σ) :
    Norm.Bc1.autoNormalize h m (est.rescale f) useAll inp out len st = Norm.Bc1.autoNormalize h m est useAll inp out len st := by
  unfold Norm.Bc1.autoNormalize
  simp only [autoBody_rescale h hA hf, show (est.rescale f).maxSize = est.maxSize from rfl]

/-- The sizes in other units: `c` for each old unit, plus a constant.  This keeps the order as long as nothing reaches `usize::MAX`. -/
theorem keepsOrder_affine {A : Nat → Prop} {max : Nat} (c d : Nat) (hc : 0 < c) (h : ∀ a, A a → c * a + d < max) :
    KeepsOrder A (fun a => c * a + d) max := by
  refine ⟨fun a b _ _ => ?_, fun a ha => ⟨fun _ => ?_, fun _ => h a ha⟩⟩
  · show c * a + d < c * b + d ↔ a < b
    rw [Nat.add_lt_add_iff_right, Nat.mul_lt_mul_left hc]
  · have := h a ha
    have := Nat.le_mul_of_pos_left a hc
    omega

theorem keepsSums_affine {A : Nat → Prop} {max : Nat} (c d : Nat) (hc : 0 < c) (h : ∀ a b, A a → A b → c * (a + b) + 2 * d < max) :
    KeepsSums A (fun a => c * a + d) max := by
  refine ⟨fun a b x y _ _ _ _ => ?_, fun a b ha hb => ⟨?_, ?_⟩⟩
  · have := Nat.mul_lt_mul_left (a := c) (b := a + b) (c := x + y) hc
    rw [← this, Nat.mul_add, Nat.mul_add]
    dsimp only
    omega
  · have := h a b ha hb
    have := Nat.le_mul_of_pos_left (a + b) hc
    omega
  · have := h a b ha hb
    rw [Nat.mul_add] at this
    dsimp only
    omega

/-! Cases: an estimator that counts its calls and answers from a list. -/

/-- Answers the entry of the list for the number of this call. -/
def Scripted (l : List Nat) : Estimator Nat Unit where
  maxSize st _ := (st, .ok 0)
  estimate st _ _ := (st + 1, .ok (l.getD st 100))

theorem scripted_in (l : List Nat) (B : Nat) (hl : ∀ n ∈ l, n < B) (h : 100 < B) : AnswersIn (· < B) (Scripted l) := by
  intro st b k n hn
  simp only [Scripted, Except.ok.injEq] at hn
  rw [← hn]
  rw [List.getD_eq_getElem?_getD]
  rcases hs : l[st]? with _ | x
  · exact h
  · exact hl x (List.mem_of_getElem? hs)

/-- The hypotheses are met, and the third candidate is taken with sizes in bytes as well as with sizes in bits plus 40. -/
example : KeepsOrder (· < 128) (fun a => 8 * a + 40) (2 ^ 64 - 1) ∧ KeepsSums (· < 128) (fun a => 8 * a + 40) (2 ^ 64 - 1) ∧
    AnswersIn (· < 128) (Scripted [50, 60, 20, 30]) :=
  ⟨keepsOrder_affine 8 40 (by decide) (fun a ha => by omega), keepsSums_affine 8 40 (by decide) (fun a b ha hb => by omega),
    scripted_in _ _ (by decide) (by decide)⟩

/-- A machine for the cases. -/
def scaleMachine : Machine := .other .little fun _ => 0

example : ((Bc1.transformAuto ⟨fun _ => true, 2 ^ 64 - 1⟩ scaleMachine (Scripted [50, 60, 20, 30]) false
      [0x34, 0x12, 0x78, 0x56, 1, 2, 3, 4] (List.replicate 8 0) 8 0).map (fun r => (r.2.1, r.2.2.toOption))) =
    some (4, some ⟨.v1, false⟩) := by decide +kernel

/-- Keeps the order of the numbers, not that of sums. -/
def bend (n : Nat) : Nat := if n < 2 then n else n + 10

theorem bend_keepsOrder : KeepsOrder (· < 128) bend (2 ^ 64 - 1) := by
  refine ⟨fun a b _ _ => ?_, fun a ha => ?_⟩ <;> (unfold bend; split <;> try split) <;> omega

/-- **C89**: for BC3 the order of the single sizes is not enough.  The same texture and the same order of the estimated sizes, but other
settings: the sizes 1 + 5 of the first candidate are more than 3 + 2 of the second one, but 1 + 15 is less than 13 + 12. -/
theorem C89_bc3_order_not_enough :
    ∃ (env : Env) (m : Machine) (est : Estimator Nat Unit) (A : Nat → Prop) (f : Nat → Nat) (inp out : Buf) (r r' : Buf × Nat × Bc3.Settings),
      AnswersIn A est ∧ KeepsOrder A f env.usizeMax ∧ inp.length = 16 ∧ out.length = 16 ∧
      Bc3.transformAuto env m est false inp out 16 0 = some (r.1, r.2.1, .ok r.2.2) ∧
      Bc3.transformAuto env m (est.rescale f) false inp out 16 0 = some (r'.1, r'.2.1, .ok r'.2.2) ∧ r.2.2 ≠ r'.2.2 := by
  refine ⟨⟨fun _ => true, 2 ^ 64 - 1⟩, scaleMachine, Scripted [1, 5, 3, 2], (· < 128), bend,
    [1, 2, 3, 4, 5, 6, 7, 8, 0x34, 0x12, 0x78, 0x56, 1, 2, 3, 4], List.replicate 16 0, ?_⟩
  refine ⟨(_, _, ⟨.v1, true, true⟩), (_, _, ⟨.v1, true, false⟩), scripted_in _ _ (by decide) (by decide), bend_keepsOrder, rfl, rfl, rfl, rfl,
    by decide⟩

end Props
end Dlt
