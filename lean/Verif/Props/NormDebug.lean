import Verif.Model.NormDebug
import Verif.Props.NormTransform
import Verif.Props.DebugAsserts
/-!
# C88: the BC1 transform with block normalization in debug builds
-/

namespace Dlt.Props
open Spec Dlt.Norm

variable {σ E : Type}

theorem decorrelateInPlaceDebug_eq (e : Endian) (addr : Nat) (buf : Buf) (n : Nat) (v : Variant) :
    Batch.decorrelateInPlaceDebug e addr buf n v =
      if addr % 2 = 1 ∧ v ≠ .none ∧ 0 < n then none else Batch.decorrelateInPlace e buf n v := by
  have loop : ∀ f : U16 → U16, forM (fun x buf =>
      if (addr + x * 2) % 2 ≠ 0 then none
      else do
        let color ← ld16 e buf (x * 2)
        st16 e buf (x * 2) (f color)) 0 n buf =
      if addr % 2 = 1 ∧ 0 < n then none else forM (fun x buf => do
        let color ← ld16 e buf (x * 2)
        st16 e buf (x * 2) (f color)) 0 n buf := by
    intro f
    by_cases ha : addr % 2 = 1
    · cases n with
      | zero => simp [forM]
      | succ n =>
        rw [if_pos ⟨ha, by omega⟩]
        simp [forM, ha]
    · rw [if_neg (fun h => ha h.1)]
      congr 1
      funext x buf
      exact if_neg (by omega)
  cases v
  · exact (loop _).trans (by simp [Batch.decorrelateInPlace])
  · exact (loop _).trans (by simp [Batch.decorrelateInPlace])
  · exact (loop _).trans (by simp [Batch.decorrelateInPlace])
  · simp [Batch.decorrelateInPlaceDebug, Batch.decorrelateInPlace]

theorem splitDebug_eq (m : Machine) (colors out : Buf) (n : Nat) (h : 0 < n) :
    Split.splitColorEndpointsDebug m colors out (n * 8 / 2) = Split.splitColorEndpoints m colors out (n * 8 / 2) :=
  if_pos ⟨by omega, by omega⟩

/-- When the transform panics. -/
def Panics (data : Buf) (outAddr : Nat) (d : Norm.Bc1.Details) : Prop :=
  (data = [] ∧ d.split = true) ∨ (data ≠ [] ∧ outAddr % 2 = 1 ∧ d.decorr ≠ .none)

open Classical in
/-- **C88**, one transform. -/
theorem C88_transform (m : Machine) (data out work : Buf) (outAddr : Nat) (d : Norm.Bc1.Details)
    (hB : data.length % 8 = 0) (ho : data.length ≤ out.length) (hw : data.length / 2 ≤ work.length) :
    Norm.Bc1.transformNormalizeDebug m data out work outAddr data.length d =
      if Panics data outAddr d then none else Norm.Bc1.transformNormalize m data out work data.length d := by
  obtain ⟨o, w, hrel, -⟩ := C50_normalize_transform m data out work d hB ho hw
  obtain ⟨n, hd⟩ : ∃ n, data.length = n * 8 := ⟨data.length / 8, by omega⟩
  have hn : data = [] ↔ n = 0 := by rw [← List.length_eq_zero_iff]; omega
  have hdec : ∀ buf : Buf, Batch.decorrelateInPlaceDebug m.endian outAddr buf (data.length / 2 / 2) d.decorr =
      if outAddr % 2 = 1 ∧ d.decorr ≠ .none ∧ 0 < n then none
      else Batch.decorrelateInPlace m.endian buf (data.length / 2 / 2) d.decorr := by
    intro buf
    rw [decorrelateInPlaceDebug_eq]
    refine if_congr (and_congr Iff.rfl (and_congr Iff.rfl ?_)) rfl rfl
    omega
  have hspl : ∀ colors out : Buf, Split.splitColorEndpointsDebug m colors out (data.length / 2) =
      if n = 0 then none else Split.splitColorEndpoints m colors out (data.length / 2) := by
    intro colors out
    unfold Split.splitColorEndpointsDebug
    split <;> split <;> first | rfl | omega
  unfold Norm.Bc1.transformNormalizeDebug
  rw [if_neg (by omega)]
  simp only [hdec, hspl]
  by_cases hp : Panics data outAddr d
  · rw [if_pos hp]
    rcases hp with ⟨h1, h2⟩ | ⟨h1, h2, h3⟩
    · by_cases hq : d.norm = .none <;> simp [hn.1 h1, h2, hq]
    · have : 0 < n := Nat.pos_of_ne_zero fun h => h1 (hn.2 h)
      simp [h2, h3, this]
  · rw [if_neg hp]
    by_cases hz : n = 0
    · have hns : d.split = false := by
        cases hq : d.split
        · rfl
        · exact (hp (.inl ⟨hn.2 hz, hq⟩)).elim
      simp [hz, hns, Norm.Bc1.transformNormalize]
    · have hne : ¬ (outAddr % 2 = 1 ∧ d.decorr ≠ .none ∧ 0 < n) := fun h => hp (.inr ⟨fun hh => hz (hn.1 hh), h.1, h.2.1⟩)
      simp only [if_neg hz, if_neg hne]
      rfl

theorem prepareVariantDebug_eq (m : Machine) (input work : Buf) {n inAddr workAddr : Nat} (hn : 0 < n) (hi : inAddr % 2 = 0)
    (hw : workAddr % 2 = 0) (d : Norm.Bc1.Details) :
    Norm.Bc1.prepareVariantDebug m input work inAddr workAddr (n * 8) d = Norm.Bc1.prepareVariant m input work (n * 8) d := by
  unfold Norm.Bc1.prepareVariantDebug Norm.Bc1.prepareVariant
  simp only [splitDebug_eq m _ _ n hn, decorrelateInPlaceDebug_eq, hi, hw]
  simp

theorem testLoopDebug_eq (m : Machine) (est : Estimator σ E) {n : Nat} (comp : Nat) (inAddr : Norm.Mode → Nat) (workAddr : Nat)
    (hn : 0 < n) (hi : ∀ x, inAddr x % 2 = 0) (hw : workAddr % 2 = 0) :
    ∀ (cs : List (Norm.Bc1.Details × Buf)) (work : Buf) (st : σ) (best : Norm.Bc1.Details) (bs : Nat),
      Norm.Bc1.testLoopDebug m est (n * 8) comp inAddr workAddr cs work st best bs =
        Norm.Bc1.testLoop m est (n * 8) comp cs work st best bs
  | [], _, _, _, _ => rfl
  | (d, inp) :: cs, work, st, best, bs => by
    simp only [Norm.Bc1.testLoopDebug, Norm.Bc1.testLoop, prepareVariantDebug_eq m inp work hn (hi d.norm) hw d,
      testLoopDebug_eq m est comp inAddr workAddr hn hi hw cs]
    refine congrArg (Option.bind _) (funext fun w => ?_)
    rcases est.estimate st (slice w 0 (n * 8 / 2)) comp with ⟨st1, _ | size⟩ <;> rfl

/-- Some block is fully transparent or shows one colour that RGB565 can express. -/
def HasNormalizable (data : Buf) : Prop := ∃ i, i < data.length / 8 ∧
  (Transparent (block 8 data i) ∨ ∃ c, c < 65536 ∧ SolidColour (block 8 data i) c)

theorem someNorm_iff {data : Buf} {n : Nat} (hd : data.length = n * 8) :
    Norm.Bc1.someNorm data n = true ↔ HasNormalizable data := by
  have hn : data.length / 8 = n := by omega
  simp only [HasNormalizable, hn, Norm.Bc1.someNorm, List.any_eq_true, List.mem_range, decide_eq_true_eq]
  refine exists_congr fun i => and_congr_right fun hi => ?_
  have hb := block_len (B := 8) (n := n) (data := data) (by omega) hi
  constructor
  · intro hk
    rcases hq : Norm.Bc1.kind (pix1 (block 8 data i)) with ⟨a, c⟩
    cases a with
    | transparent => exact .inl ((transparent_iff hb).2 (Norm.Bc1.kind_transparent hq))
    | solid => exact .inr ⟨c.toNat, c.isLt, (solid_iff hb c).2 (Norm.Bc1.kind_solid hq)⟩
    | cannot => rw [hq] at hk; exact (hk rfl).elim
  · rintro (hs | ⟨c, hc, hs⟩)
    · rw [Norm.Bc1.kind_of_transparent ((transparent_iff hb).1 hs)]
      exact fun e => nomatch e
    · have hcn : (BitVec.ofNat 16 c).toNat = c := by simp; omega
      rw [Norm.Bc1.kind_of_solid ((solid_iff hb (BitVec.ofNat 16 c)).1 (by rw [hcn]; exact hs))]
      exact fun e => nomatch e

theorem transformAutoDebug_eq (env : Env) (m : Machine) (est : Estimator σ E) (useAll : Bool) (data out : Buf) (st : σ)
    (h : 8 ≤ data.length) :
    Dlt.Bc1.transformAutoDebug env m est useAll data out data.length st = Dlt.Bc1.transformAuto env m est useAll data out data.length st := by
  unfold Dlt.Bc1.transformAutoDebug Dlt.Bc1.transformAuto
  have hf : (fun (out : Buf) (s : ColourSettings) =>
      if Bc1.transformAsserts m s ∧ data.length / 8 = 0 then none else Bc1.transformWithSettings m data out data.length s) =
      fun out s => Bc1.transformWithSettings m data out data.length s := by
    funext out s
    exact if_neg (by omega)
  rw [hf]

/-- The choice that a result reports. -/
def Chose (d : Norm.Bc1.Details) (r : Option (Buf × σ × Except (DetermineBestError E) Norm.Bc1.Details)) : Prop :=
  ∃ out st, r = some (out, st, .ok d)

open Classical in
/-- **C88**, the automatic choice. -/
theorem C88_auto (h : Norm.Bc1.Heap) (addr : Nat → Nat) (m : Machine) (est : Estimator σ E) (useAll : Bool) (data out : Buf)
    (outAddr : Nat) (st : σ) (hB : data.length % 8 = 0) (hne : data ≠ []) (ho : data.length ≤ out.length)
    (haddr : ∀ k, addr k % 64 = 0) :
    Norm.Bc1.autoNormalizeDebug h addr m est useAll data out outAddr data.length st =
      if outAddr % 2 = 1 ∧ HasNormalizable data ∧
          ∃ d, d.decorr ≠ .none ∧ Chose d (Norm.Bc1.autoNormalize h m est useAll data out data.length st)
      then none else Norm.Bc1.autoNormalize h m est useAll data out data.length st := by
  obtain ⟨n, hd⟩ : ∃ n, data.length = n * 8 := ⟨data.length / 8, by omega⟩
  have hn : 0 < n := by
    have := List.length_pos_iff.2 hne
    omega
  have ha2 : ∀ k, addr k % 2 = 0 := fun k => by have := haddr k; omega
  have hadd : ∀ x, Norm.Bc1.splitAddr addr x % 2 = 0 := fun x => by cases x <;> exact ha2 _
  have body : ∀ comp st, Norm.Bc1.autoBodyDebug h addr m est useAll data out outAddr data.length comp st =
      if outAddr % 2 = 1 ∧ HasNormalizable data ∧
          ∃ d, d.decorr ≠ .none ∧ Chose d (Norm.Bc1.autoBody h m est useAll data out data.length comp st)
      then none else Norm.Bc1.autoBody h m est useAll data out data.length comp st := by
    intro comp st
    unfold Norm.Bc1.autoBodyDebug Norm.Bc1.autoBody
    rw [if_neg (by omega), hd, Norm.Bc1.allModes_fresh h hd, ← hd]
    simp only [Option.bind_eq_bind, Option.bind_some]
    rw [← someNorm_iff hd]
    by_cases hany : Norm.Bc1.someNorm data n = true
    · rw [if_pos hany, if_pos hany]
      by_cases hA : (h.canAlloc 4 data.length && h.canAlloc 5 data.length && h.canAlloc 6 data.length) = true
      · rw [if_pos hA, if_pos hA]
        obtain ⟨s0, s1, s2, e0, e1, e2, _, hc⟩ := Norm.Bc1.candidates_form m useAll h hd
        simp only [List.getElem?_cons_zero, List.getElem?_cons_succ, Option.bind_some]
        rw [hd, e0, e1, e2, ← hd]
        simp only [Option.bind_some]
        by_cases hW : h.canAlloc 7 (data.length / 2) = true
        · rw [if_pos hW, if_pos hW]
          obtain ⟨w, st', best, t1, t2, _⟩ := Norm.Bc1.testLoop_total m est comp
            (Norm.Bc1.candidates useAll [s0, s1, s2]) (h.buf 7 (data.length / 2)) st .default h.usizeMax
            (n := n) (fun c hcm => by
              obtain ⟨x, rest, _, hx⟩ := hc c hcm
              exact ⟨_, rest, Norm.Bc1.tested_length hd x, hx⟩)
            (by rw [Norm.Bc1.Heap.buf_length]; omega)
          rw [hd, testLoopDebug_eq m est comp _ _ hn hadd (ha2 7), ← hd]
          rw [← hd] at t1
          rw [t1]
          simp only [Option.bind_some]
          obtain ⟨o, w', hrel, -⟩ := C50_normalize_transform m data out w best hB ho (by omega)
          rw [C88_transform m data out w outAddr best hB ho (by omega), hrel]
          simp only [Option.bind_some]
          by_cases hp : Panics data outAddr best
          · rw [if_pos hp]
            obtain ⟨-, hp1, hp2⟩ : data ≠ [] ∧ outAddr % 2 = 1 ∧ best.decorr ≠ .none := hp.resolve_left (fun q => hne q.1)
            exact (if_pos ⟨hp1, hany, best, hp2, o, st', rfl⟩).symm
          · rw [if_neg hp, if_neg]
            · rfl
            · rintro ⟨q1, -, d, q2, o2, st2, q3⟩
              cases q3
              exact hp (.inr ⟨hne, q1, q2⟩)
        · rw [if_neg hW, if_neg hW, if_neg]
          rintro ⟨-, -, d, -, o2, st2, q3⟩
          cases q3
      · rw [if_neg hA, if_neg hA, if_neg]
        rintro ⟨-, -, d, -, o2, st2, q3⟩
        cases q3
    · rw [if_neg hany, if_neg hany, if_neg (fun q => hany q.2.1), transformAutoDebug_eq _ _ _ _ _ _ _ (by omega)]
  have none_ok : ∀ (st : σ) (e : DetermineBestError E) (c : Prop),
      some (out, st, Except.error e) = if outAddr % 2 = 1 ∧ c ∧ ∃ d : Norm.Bc1.Details, d.decorr ≠ .none ∧
        Chose d (some (out, st, (.error e : Except (DetermineBestError E) Norm.Bc1.Details))) then none else
        some (out, st, (.error e : Except (DetermineBestError E) Norm.Bc1.Details)) := by
    intro st e c
    rw [if_neg]
    rintro ⟨-, -, d, -, o2, st2, q3⟩
    cases q3
  unfold Norm.Bc1.autoNormalizeDebug Norm.Bc1.autoNormalize
  by_cases hA : (h.canAlloc 0 data.length && h.canAlloc 1 data.length && h.canAlloc 2 data.length) = true
  · simp only [if_pos hA]
    rcases est.maxSize st (data.length / 2) with ⟨st1, e | k⟩
    · exact none_ok _ _ _
    · dsimp only
      by_cases hk : k = 0
      · simp only [if_pos hk]
        exact body 0 st1
      · simp only [if_neg hk]
        by_cases h3 : h.canAlloc 3 k = true
        · simp only [if_pos h3]
          exact body k st1
        · simp only [if_neg h3]
          exact none_ok _ _ _
  · simp only [if_neg hA]
    exact none_ok _ _ _

/-- A block that shows one colour, in memory without vector code. -/
def solidBlock : Buf := [0x34, 0x12, 0x34, 0x12, 0x44, 0x11, 0x05, 0x50]

/-- See `solidBlock`. -/
def plainMachine : Machine := .other .little fun _ => 0

/-- At an odd address the transform panics unless nothing is decorrelated; at an even address it does not.  The empty input panics with
split end points at any address. -/
example : HasNormalizable solidBlock ∧
    [(1, Variant.v1), (1, .none), (2, .v1)].map (fun p => (Norm.Bc1.transformNormalizeDebug plainMachine solidBlock (List.replicate 8 0)
      (List.replicate 4 0) p.1 8 ⟨.color0Only, p.2, true⟩).isSome) = [false, true, true] ∧
    (Norm.Bc1.transformNormalizeDebug plainMachine [] [] [] 2 0 ⟨.none, .none, true⟩).isSome = false ∧
    (Norm.Bc1.transformNormalizeDebug plainMachine [] [] [] 1 0 ⟨.none, .v1, false⟩).isSome = true := by
  refine ⟨?_, by decide +kernel, by decide +kernel, by decide +kernel⟩
  rw [← someNorm_iff (n := 1) rfl]
  decide +kernel

/-- The automatic choice panics at an odd address and works at an even one, where it chooses to decorrelate. -/
example : [1, 2].map (fun a => (Norm.Bc1.autoNormalizeDebug roomy (fun k => k * 64) plainMachine (counting 0x34) true solidBlock
      (List.replicate 8 0) a 8 ()).map fun r => r.2.2.toOption) =
    [none, some (some ⟨.none, .v2, false⟩)] := by decide +kernel

end Dlt.Props
