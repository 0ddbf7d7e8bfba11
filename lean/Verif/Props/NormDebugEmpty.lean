import Verif.Props.NormDebug
import Verif.Props.DebugAuto
/-!
# C88: the automatic choice for empty input
-/

namespace Dlt.Props

variable {σ E : Type}

open Classical in
/-- C55 without the checks of the safe function. -/
theorem auto_debug_empty (env : Env) (m : Machine) (est : Estimator σ E) (useAll : Bool) (output : Buf) (st : σ) :
    Bc1.transformAutoDebug env m est useAll [] output 0 st =
      if (∃ f, m = .x86 f ∧ f.avx512bw = true) ∧ GetsPast env est (if useAll then 2 else 1) st then none
      else Bc1.transformAuto env m est useAll [] output 0 st := by
  have h := C55_auto_exact env m est useAll [] output st
  have d1 : Bc1.transformAutoSafeDebug env m est useAll [] output st =
      (Bc1.transformAutoDebug env m est useAll [] output 0 st).bind fun r => some (r.1, r.2.1, r.2.2.mapError .determineBest) := by
    unfold Bc1.transformAutoSafeDebug
    rw [if_neg (by simp), if_neg (by simp)]
    rfl
  have d2 : Bc1.transformAutoSafe env m est useAll [] output st =
      (Bc1.transformAuto env m est useAll [] output 0 st).bind fun r => some (r.1, r.2.1, r.2.2.mapError .determineBest) := by
    unfold Bc1.transformAutoSafe
    rw [if_neg (by simp), if_neg (by simp)]
    rfl
  rw [d1, d2] at h
  simp only [true_and] at h
  by_cases hp : (∃ f, m = .x86 f ∧ f.avx512bw = true) ∧ GetsPast env est (if useAll then 2 else 1) st
  · rw [if_pos hp] at h ⊢
    rcases hx : Bc1.transformAutoDebug env m est useAll [] output 0 st with _ | x
    · rfl
    · rw [hx] at h; simp at h
  · rw [if_neg hp] at h ⊢
    generalize Bc1.transformAutoDebug env m est useAll [] output 0 st = x at h ⊢
    generalize Bc1.transformAuto env m est useAll [] output 0 st = y at h ⊢
    rcases x with _ | ⟨o, s, r⟩ <;> rcases y with _ | ⟨o', s', r'⟩
    · rfl
    · simp at h
    · simp at h
    · simp only [Option.bind_some, Option.some.injEq, Prod.mk.injEq] at h
      obtain ⟨rfl, rfl, h⟩ := h
      rcases r with e | a <;> rcases r' with e' | a' <;> simp_all [Except.mapError]

open Classical in
/-- **C88**, the automatic choice for empty input: in a debug build it panics when the machine has AVX-512 BW, the buffers can be had, and the estimator tells the size of
its scratch buffer twice and then the size of nothing as often as there are candidates before the first one with split colours (one; two
if all are tried).  Otherwise it does what the release build does.  The address of the output does not matter. -/
theorem C88_auto_empty (h : Norm.Bc1.Heap) (addr : Nat → Nat) (m : Machine) (est : Estimator σ E) (useAll : Bool) (out : Buf)
    (outAddr : Nat) (st : σ) :
    Norm.Bc1.autoNormalizeDebug h addr m est useAll [] out outAddr 0 st =
      if (∃ f, m = .x86 f ∧ f.avx512bw = true) ∧ (h.canAlloc 0 0 = true ∧ h.canAlloc 1 0 = true ∧ h.canAlloc 2 0 = true) ∧
        ∃ st1 n, est.maxSize st 0 = (st1, .ok n) ∧ (n = 0 ∨ h.canAlloc 3 n = true) ∧
          GetsPast ⟨h.canAlloc 8, h.usizeMax⟩ est (if useAll then 2 else 1) st1
      then none else Norm.Bc1.autoNormalize h m est useAll [] out 0 st := by
  have hany : Norm.Bc1.someNorm [] 0 = false := rfl
  have body : ∀ comp st, Norm.Bc1.autoBodyDebug h addr m est useAll [] out outAddr 0 comp st =
      if (∃ f, m = .x86 f ∧ f.avx512bw = true) ∧ GetsPast ⟨h.canAlloc 8, h.usizeMax⟩ est (if useAll then 2 else 1) st
      then none else Norm.Bc1.autoBody h m est useAll [] out 0 comp st := by
    intro comp st
    unfold Norm.Bc1.autoBodyDebug Norm.Bc1.autoBody
    have hm := Norm.Bc1.allModes_fresh h (inp := []) (n := 0) rfl
    rw [show 0 * 8 = 0 from rfl] at hm
    rw [if_neg (by simp), hm]
    simp only [Option.bind_eq_bind, Option.bind_some, hany, Bool.false_eq_true, if_false]
    rw [auto_debug_empty]
    by_cases hp : (∃ f, m = .x86 f ∧ f.avx512bw = true) ∧
        GetsPast ⟨h.canAlloc 8, h.usizeMax⟩ est (if useAll then 2 else 1) st
    · rw [if_pos hp, if_pos hp]; rfl
    · rw [if_neg hp, if_neg hp]
  unfold Norm.Bc1.autoNormalizeDebug Norm.Bc1.autoNormalize
  by_cases hA : (h.canAlloc 0 0 && h.canAlloc 1 0 && h.canAlloc 2 0) = true
  · have hA' : h.canAlloc 0 0 = true ∧ h.canAlloc 1 0 = true ∧ h.canAlloc 2 0 = true := by
      simpa [and_assoc] using hA
    simp only [if_pos hA]
    rcases hq : est.maxSize st (0 / 2) with ⟨st1, e | k⟩
    · rw [if_neg]
      rintro ⟨-, -, s, n, q, -⟩
      cases q
    · dsimp only
      have cond : ∀ ok : Prop, ((k = 0 ∨ h.canAlloc 3 k = true) ↔ ok) →
          (((∃ f, m = .x86 f ∧ f.avx512bw = true) ∧ (h.canAlloc 0 0 = true ∧ h.canAlloc 1 0 = true ∧ h.canAlloc 2 0 = true) ∧
            ∃ st2 n, ((st1, .ok k) : σ × Except E Nat) = (st2, .ok n) ∧ (n = 0 ∨ h.canAlloc 3 n = true) ∧
              GetsPast ⟨h.canAlloc 8, h.usizeMax⟩ est (if useAll then 2 else 1) st2) ↔
          ok ∧ (∃ f, m = .x86 f ∧ f.avx512bw = true) ∧ GetsPast ⟨h.canAlloc 8, h.usizeMax⟩ est (if useAll then 2 else 1) st1) := by
        intro ok hok
        constructor
        · rintro ⟨a, -, s, n, q, c, d⟩
          cases q
          exact ⟨hok.1 c, a, d⟩
        · rintro ⟨c, a, d⟩
          exact ⟨a, hA', st1, k, rfl, hok.2 c, d⟩
      by_cases hk : k = 0
      · simp only [if_pos hk]
        rw [body, if_congr (cond True ⟨fun _ => trivial, fun _ => Or.inl hk⟩) rfl rfl]
        simp only [true_and]
      · simp only [if_neg hk]
        by_cases h3 : h.canAlloc 3 k = true
        · simp only [if_pos h3]
          rw [body, if_congr (cond True ⟨fun _ => trivial, fun _ => Or.inr h3⟩) rfl rfl]
          simp only [true_and]
        · simp only [if_neg h3]
          rw [if_congr (cond False ⟨fun q => q.elim hk h3, False.elim⟩) rfl rfl]
          simp only [false_and, if_false]
  · simp only [if_neg hA]
    rw [if_neg]
    rintro ⟨-, ⟨a, b, c⟩, -⟩
    exact hA (by simp [a, b, c])

/-- Non-vacuity: with AVX-512 BW and the counting estimator the debug build panics and the release build does not; without it neither does. -/
example : [true, false].map (fun b => (Norm.Bc1.autoNormalizeDebug roomy (fun k => k * 64)
      (.x86 ⟨true, true, true, true, b, false, fun _ => 0⟩) (counting 0x34) true [] [] 0 0 ()).isSome) = [false, true] ∧
    (Norm.Bc1.autoNormalize roomy (.x86 ⟨true, true, true, true, true, false, fun _ => 0⟩) (counting 0x34) true [] [] 0 ()).isSome = true := by
  decide +kernel

end Dlt.Props
