import Verif.Lemmas.Auto
/-! Two estimators that answer alike lead the search to the same result. -/

namespace Dlt.Auto

variable {S σ₁ σ₂ E : Type}

/-- The measurements of the transformed data agree and keep the states related. -/
def Alike (R : σ₁ → σ₂ → Prop) (T : S → Buf) (m₁ : σ₁ → Buf → σ₁ × Except E Nat) (m₂ : σ₂ → Buf → σ₂ × Except E Nat) : Prop :=
  ∀ st₁ st₂ s, R st₁ st₂ → (m₁ st₁ (T s)).2 = (m₂ st₂ (T s)).2 ∧ R (m₁ st₁ (T s)).1 (m₂ st₂ (T s)).1

theorem loop_alike {P : Buf → Prop} {transform : Buf → S → Option Buf} {T : S → Buf} (h : Runs P transform T)
    {R : σ₁ → σ₂ → Prop} {m₁ : σ₁ → Buf → σ₁ × Except E Nat} {m₂ : σ₂ → Buf → σ₂ × Except E Nat} (hR : Alike R T m₁ m₂) :
    ∀ (order : List S) (out : Buf) (st₁ : σ₁) (st₂ : σ₂) (best : S) (bs : Nat) (last : S), P out → R st₁ st₂ →
      ∃ out' st₁' st₂' r, loop transform m₁ order out st₁ best bs last = some (out', st₁', r) ∧
        loop transform m₂ order out st₂ best bs last = some (out', st₂', r) ∧ P out' ∧ R st₁' st₂'
  | [], out, st₁, st₂, best, bs, last, hP, hr => ⟨out, st₁, st₂, _, rfl, rfl, hP, hr⟩
  | s :: rest, out, st₁, st₂, best, bs, last, hP, hr => by
    simp only [loop, h.eq out s hP, Option.bind_eq_bind, Option.bind_some]
    obtain ⟨h1, h2⟩ := hR st₁ st₂ s hr
    cases hm1 : m₁ st₁ (T s) with
    | mk a r1 =>
      cases hm2 : m₂ st₂ (T s) with
      | mk b r2 =>
        rw [hm1, hm2] at h1 h2
        dsimp only at h1 h2
        subst h1
        cases r1 with
        | error e => exact ⟨_, _, _, _, rfl, rfl, h.keep s, h2⟩
        | ok n =>
          dsimp only
          split
          · exact loop_alike h hR rest _ _ _ _ _ _ (h.keep s) h2
          · exact loop_alike h hR rest _ _ _ _ _ _ (h.keep s) h2

theorem search_alike [DecidableEq S] {P : Buf → Prop} {transform : Buf → S → Option Buf} {T : S → Buf} (h : Runs P transform T)
    {R : σ₁ → σ₂ → Prop} {m₁ : σ₁ → Buf → σ₁ × Except E Nat} {m₂ : σ₂ → Buf → σ₂ × Except E Nat} (hR : Alike R T m₁ m₂)
    (env : Env) (order : List S) (dflt : S) (out : Buf) (st₁ : σ₁) (st₂ : σ₂) (hP : P out) (hr : R st₁ st₂) :
    ∃ out' st₁' st₂' r, search env order dflt transform m₁ out st₁ = some (out', st₁', r) ∧
      search env order dflt transform m₂ out st₂ = some (out', st₂', r) ∧ P out' ∧ R st₁' st₂' := by
  obtain ⟨out', a, b, r, h1, h2, h3, h4⟩ := loop_alike h hR order out st₁ st₂ dflt env.usizeMax dflt hP hr
  simp only [search, h1, h2, Option.bind_eq_bind, Option.bind_some]
  rcases r with e | ⟨best, last⟩
  · exact ⟨_, _, _, _, rfl, rfl, h3, h4⟩
  · dsimp only
    split
    · rw [h.eq _ _ h3]
      exact ⟨_, _, _, _, rfl, rfl, h.keep _, h4⟩
    · exact ⟨_, _, _, _, rfl, rfl, h3, h4⟩

/-- The same for the whole search: `need` is the size of the scratch buffer. -/
theorem prepare_alike [DecidableEq S] {P : Buf → Prop} {transform : Buf → S → Option Buf} {T : S → Buf}
    (h : Runs P transform T) {R : σ₁ → σ₂ → Prop} (env : Env) {e₁ : Estimator σ₁ E} {e₂ : Estimator σ₂ E} (len : Nat)
    (hmax : ∀ st₁ st₂, R st₁ st₂ → (e₁.maxSize st₁ len).2 = (e₂.maxSize st₂ len).2 ∧
      R (e₁.maxSize st₁ len).1 (e₂.maxSize st₂ len).1)
    {m₁ : Nat → σ₁ → Buf → σ₁ × Except E Nat} {m₂ : Nat → σ₂ → Buf → σ₂ × Except E Nat}
    (hR : ∀ k, (∃ st, (e₂.maxSize st len).2 = .ok k) → Alike R T (m₁ k) (m₂ k))
    (order : List S) (dflt : S) (out : Buf) (st₁ : σ₁) (st₂ : σ₂) (hP : P out) (hr : R st₁ st₂) :
    ∃ out' st₁' st₂' r,
      prepare env e₁ len out st₁ (fun k st => search env order dflt transform (m₁ k) out st) = some (out', st₁', r) ∧
      prepare env e₂ len out st₂ (fun k st => search env order dflt transform (m₂ k) out st) = some (out', st₂', r) ∧
      P out' ∧ R st₁' st₂' := by
  obtain ⟨h1, h2⟩ := hmax st₁ st₂ hr
  have hk : ∀ k, (e₂.maxSize st₂ len).2 = .ok k → Alike R T (m₁ k) (m₂ k) := fun k hk => hR k ⟨_, hk⟩
  unfold prepare
  revert hk
  cases hm1 : e₁.maxSize st₁ len with
  | mk a r1 =>
    cases hm2 : e₂.maxSize st₂ len with
    | mk b r2 =>
      intro hk
      rw [hm1, hm2] at h1 h2
      dsimp only at h1 h2 hk
      subst h1
      cases r1 with
      | error e => exact ⟨_, _, _, _, rfl, rfl, hP, h2⟩
      | ok k =>
        have hk := hk k rfl
        dsimp only
        by_cases h0 : k = 0
        · subst h0
          rw [if_pos rfl, if_pos rfl]
          exact search_alike h hk env order dflt out a b hP h2
        · rw [if_neg h0, if_neg h0]
          split
          · exact search_alike h hk env order dflt out a b hP h2
          · exact ⟨_, _, _, _, rfl, rfl, hP, h2⟩

end Dlt.Auto
