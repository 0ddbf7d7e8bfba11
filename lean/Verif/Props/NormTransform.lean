import Verif.Lemmas.NormTransform
import Verif.Props.Normalize
import Verif.Props.Auto
/-!
# The BC1 transform with block normalization: C50, C58
-/

namespace Dlt.Props
open Spec Norm

variable {σ E : Type}

/-- Untransforming `out'` on machine `m'` with the settings of `d` gives the normalized blocks of `data`,
and so the same pixels. -/
def Restores (m' : Machine) (data out' : Buf) (d : Norm.Bc1.Details) : Prop :=
  ∀ buf : Buf, data.length ≤ buf.length →
    ∃ u, Dlt.Bc1.untransformWithSettings m' (out'.take data.length) buf data.length d.untransformSettings = some u ∧
      Norm.Bc1.normalizeBlocks none data data.length d.norm = some (u.take data.length) ∧
      ∀ i, i < data.length / 8 → ∀ k, k < 16 → bc1Pixel (block 8 u i) k = bc1Pixel (block 8 data i) k

theorem restores_of (m m' : Machine) (he : m'.endian = m.endian) {data out : Buf} {n : Nat}
    (hd : data.length = n * 8) (d : Norm.Bc1.Details) :
    Restores m' data (Dlt.Bc1.encode m.endian d.untransformSettings (mapBlocks 8 (Norm.Bc1.norm d.norm) data n) ++
      out.drop (n * 8)) d := by
  intro buf hbuf
  have hl := mapBlocks_length (Norm.Bc1.norm_length d.norm) (show n * 8 ≤ data.length by omega)
  have hel : (Dlt.Bc1.encode m.endian d.untransformSettings (mapBlocks 8 (Norm.Bc1.norm d.norm) data n)).length =
      n * 8 := by rw [Dlt.Bc1.encode_length _ _ (by omega), hl]
  have hu := (Dlt.Bc1.untransform_impl m' d.untransformSettings _ buf (by rw [hel]; omega) (by omega)).2
  rw [he, Dlt.Bc1.decode_encode _ _ _ (by omega), hel] at hu
  rw [hd, List.take_left' hel]
  refine ⟨_, hu, ?_, fun i hi k hk => ?_⟩
  · rw [Norm.Bc1.normalizeBlocks_eq none data n d.norm (by simp only [Option.getD_none]; omega) (by omega),
      List.take_left' hl, List.drop_eq_nil_of_le (by omega), List.append_nil]; rfl
  · have hi' : i < n := by omega
    have hb := block_len (B := 8) (n := n) (data := data) (by omega) hi'
    rw [block_mapBlocks (Norm.Bc1.norm_length d.norm) (by omega) hi',
      ← pix1_spec (Norm.Bc1.norm_length _ _ hb) hk, ← pix1_spec hb hk, Norm.Bc1.norm_pix _ _ k hk]

/-- **C50.** `transform_bc1_with_normalize_blocks`, for all data, settings and CPUs: it succeeds, writes only the
output, and untransforming with the settings gives the normalized blocks, whose pixels are those of the
input; without normalization it is `transform_bc1_with_settings`. -/
theorem C50_normalize_transform (m : Machine) (data out work : Buf) (d : Norm.Bc1.Details)
    (hB : data.length % 8 = 0) (ho : data.length ≤ out.length) (hw : data.length / 2 ≤ work.length) :
    ∃ out' work', Norm.Bc1.transformNormalize m data out work data.length d = some (out', work') ∧
      out'.length = out.length ∧ out'.drop data.length = out.drop data.length ∧ work'.length = work.length ∧
      (∀ m' : Machine, m'.endian = m.endian → Restores m' data out' d) ∧
      (d.norm = .none → Dlt.Bc1.transformWithSettings m data out data.length d.untransformSettings = some out') := by
  obtain ⟨n, hd⟩ : ∃ n, data.length = n * 8 := ⟨data.length / 8, by omega⟩
  obtain ⟨work', h1, h2⟩ := Norm.Bc1.transformNormalize_eq m d hd (by omega : n * 8 ≤ out.length)
    (by omega : n * 4 ≤ work.length)
  have hl := mapBlocks_length (Norm.Bc1.norm_length d.norm) (show n * 8 ≤ data.length by omega)
  have hel : (Dlt.Bc1.encode m.endian d.untransformSettings (mapBlocks 8 (Norm.Bc1.norm d.norm) data n)).length =
      n * 8 := by rw [Dlt.Bc1.encode_length _ _ (by omega), hl]
  refine ⟨_, _, by rw [hd]; exact h2, ?_, ?_, h1, fun m' he => restores_of m m' he hd d, fun hn => ?_⟩
  · rw [List.length_append, hel, List.length_drop]; omega
  · rw [hd, List.drop_left' hel]
  · have e : mapBlocks 8 (Norm.Bc1.norm d.norm) data n = data := by
      have : mapBlocks 8 (Norm.Bc1.norm d.norm) data n = mapBlocks 8 id data n :=
        mapBlocks_congr fun i _ => by rw [Norm.Bc1.norm, if_pos hn]; rfl
      rw [this, mapBlocks_id (by omega), ← hd, List.take_length]
    rw [e, ← hd]
    exact (Dlt.Bc1.transform_impl m d.untransformSettings data out hB ho).2

/-- A solid block and an ordinary one, normalized and split, on a machine without vector code. -/
example : (Norm.Bc1.transformNormalize (.other .little fun _ => 0)
    [0x34, 0x12, 0x34, 0x12, 0x44, 0x11, 0x05, 0x50, 1, 2, 3, 4, 5, 6, 7, 8] (List.replicate 17 9)
    (List.replicate 8 0) 16 ⟨.color0Only, .none, true⟩).map Prod.fst =
    some [0x34, 0x12, 1, 2, 0, 0, 3, 4, 0, 0, 0, 0, 5, 6, 7, 8, 9] := by decide +kernel

/-- The details of a candidate list: three normalization modes times the test order. -/
def normOrder (useAll : Bool) : List Norm.Bc1.Details :=
  [Mode.none, .color0Only, .replicate].flatMap fun mode =>
    (Dlt.Bc1.testOrder useAll).map fun s => ⟨mode, s.decorr, s.split⟩

/-- **C50.** `transform_bc1_auto_with_normalization`, for all data, estimators (also failing ones), allocator
behaviours and CPUs: it returns a result; if that is `Ok(details)`, the output holds the transform with
these details, so that untransforming restores the pixels. -/
theorem C50_auto_normalize (h : Norm.Bc1.Heap) (m : Machine) (est : Estimator σ E) (useAll : Bool)
    (data out : Buf) (st : σ) (hB : data.length % 8 = 0) (ho : data.length ≤ out.length) :
    ∃ out' st' r, Norm.Bc1.autoNormalize h m est useAll data out data.length st = some (out', st', r) ∧
      out'.length = out.length ∧ out'.drop data.length = out.drop data.length ∧
      ∀ d, r = .ok d →
        (∀ work : Buf, data.length / 2 ≤ work.length →
          (Norm.Bc1.transformNormalize m data out work data.length d).map Prod.fst = some out') ∧
        ∀ m' : Machine, m'.endian = m.endian → Restores m' data out' d := by
  obtain ⟨n, hd⟩ : ∃ n, data.length = n * 8 := ⟨data.length / 8, by omega⟩
  have fin : ∀ d work, data.length / 2 ≤ List.length work → ∃ out' work',
      Norm.Bc1.transformNormalize m data out work (n * 8) d = some (out', work') ∧
      out'.length = out.length ∧ out'.drop data.length = out.drop data.length ∧
      (∀ work : Buf, data.length / 2 ≤ work.length →
          (Norm.Bc1.transformNormalize m data out work data.length d).map Prod.fst = some out') ∧
        ∀ m' : Machine, m'.endian = m.endian → Restores m' data out' d := by
    intro d work hw
    obtain ⟨out', work', h1, h2, h3, _, h5, _⟩ := C50_normalize_transform m data out work d hB ho hw
    refine ⟨out', work', by rw [← hd]; exact h1, h2, h3, fun w hw' => ?_, h5⟩
    obtain ⟨w1, _, e1⟩ := Norm.Bc1.transformNormalize_eq m d hd (by omega : n * 8 ≤ out.length) (by omega : n * 4 ≤ work.length)
    obtain ⟨w2, _, e2⟩ := Norm.Bc1.transformNormalize_eq m d hd (by omega : n * 8 ≤ out.length) (by omega : n * 4 ≤ w.length)
    rw [hd] at h1 ⊢
    rw [h1] at e1
    rw [e2]
    simp only [Option.map_some, Option.some.injEq, Prod.mk.injEq] at e1 ⊢
    exact e1.1.symm
  have body : ∀ comp st, ∃ out' st' r, Norm.Bc1.autoBody h m est useAll data out data.length comp st =
      some (out', st', r) ∧ out'.length = out.length ∧ out'.drop data.length = out.drop data.length ∧
      ∀ d, r = .ok d →
        (∀ work : Buf, data.length / 2 ≤ work.length →
          (Norm.Bc1.transformNormalize m data out work data.length d).map Prod.fst = some out') ∧
        ∀ m' : Machine, m'.endian = m.endian → Restores m' data out' d := by
    intro comp st
    unfold Norm.Bc1.autoBody
    rw [hd, Norm.Bc1.allModes_fresh h hd, ← hd]
    simp only [Option.bind_eq_bind, Option.bind_some]
    by_cases hany : Norm.Bc1.someNorm data n = true
    · rw [if_pos hany]
      by_cases hA : (h.canAlloc 4 data.length && h.canAlloc 5 data.length && h.canAlloc 6 data.length) = true
      · rw [if_pos hA]
        obtain ⟨s0, s1, s2, e0, e1, e2, _, hc⟩ := Norm.Bc1.candidates_form m useAll h hd
        simp only [List.getElem?_cons_zero, List.getElem?_cons_succ, Option.bind_some]
        rw [hd, e0, e1, e2, ← hd]
        simp only [Option.bind_some]
        by_cases hW : h.canAlloc 7 (data.length / 2) = true
        · rw [if_pos hW]
          obtain ⟨w, st', best, t1, t2, _⟩ := Norm.Bc1.testLoop_total m est comp
            (Norm.Bc1.candidates useAll [s0, s1, s2]) (h.buf 7 (data.length / 2)) st .default h.usizeMax
            (n := n) (fun c hcm => by
              obtain ⟨x, rest, _, hx⟩ := hc c hcm
              exact ⟨_, rest, Norm.Bc1.tested_length hd x, hx⟩)
            (by rw [Norm.Bc1.Heap.buf_length]; omega)
          rw [← hd] at t1
          rw [t1]
          simp only [Option.bind_some]
          obtain ⟨out', work', f1, f2, f3, f4⟩ := fin best w (by omega)
          rw [← hd] at f1
          rw [f1]
          refine ⟨out', st', .ok best, rfl, f2, f3, fun d hdd => ?_⟩
          cases hdd
          exact f4
        · rw [if_neg hW]
          exact ⟨out, st, _, rfl, rfl, rfl, fun d hdd => nomatch hdd⟩
      · rw [if_neg hA]
        exact ⟨out, st, _, rfl, rfl, rfl, fun d hdd => nomatch hdd⟩
    · rw [if_neg hany]
      obtain ⟨out', st', r, h1, h2, h3, h4⟩ := C17_bc1_auto_reports_used ⟨h.canAlloc 8, h.usizeMax⟩ m est useAll
        data out st hB ho
      rw [h1]
      refine ⟨out', st', r.map Norm.Bc1.Details.ofSettings, rfl, h2, h3, fun d hdd => ?_⟩
      cases r with
      | error e => cases hdd
      | ok s =>
        obtain rfl : Norm.Bc1.Details.ofSettings s = d := by
          simpa [Except.map] using hdd
        obtain ⟨h5, _⟩ := h4 s rfl
        obtain ⟨o2, w2, f1, f2, f3, f4⟩ := fin (Norm.Bc1.Details.ofSettings s) (List.replicate (data.length / 2) 0)
          (by simp)
        obtain ⟨o3, w3, g1, _, _, _, _, g6⟩ := C50_normalize_transform m data out (List.replicate (data.length / 2) 0)
          (Norm.Bc1.Details.ofSettings s) hB ho (by simp)
        rw [← hd, g1] at f1
        have h6 := g6 rfl
        rw [show (Norm.Bc1.Details.ofSettings s).untransformSettings = s from rfl, h5] at h6
        simp only [Option.some.injEq, Prod.mk.injEq] at f1 h6
        rw [h6, f1.1]
        exact f4
  unfold Norm.Bc1.autoNormalize
  split
  · rcases est.maxSize st (data.length / 2) with ⟨st1, e | k⟩
    · exact ⟨out, st1, _, rfl, rfl, rfl, fun d hdd => nomatch hdd⟩
    · dsimp only
      split
      · exact body 0 st1
      split
      · exact body k st1
      · exact ⟨out, st1, _, rfl, rfl, rfl, fun d hdd => nomatch hdd⟩
  · exact ⟨out, st, _, rfl, rfl, rfl, fun d hdd => nomatch hdd⟩

/-- Memory never runs out. -/
def roomy : Norm.Bc1.Heap := ⟨fun _ _ => true, fun _ _ => 0, 2 ^ 64 - 1⟩

/-- An estimator that counts the bytes which are `b`. -/
def counting (b : Byte) : Estimator Unit Unit :=
  ⟨fun _ _ => ((), .ok 0), fun _ x _ => ((), .ok (x.count b))⟩

/-- A solid block: the transform with the first candidate leaves none of the bytes counted. -/
example : (Norm.Bc1.autoNormalize roomy (.other .little fun _ => 0) (counting 0x12) false
    [0x34, 0x12, 0x34, 0x12, 0x44, 0x11, 0x05, 0x50] (List.replicate 8 0) 8 ()).map (fun r => (r.1, r.2.2.toOption)) =
    some ([0xAD, 0x0B, 0xAD, 0x0B, 0x44, 0x11, 0x05, 0x50], some ⟨.none, .v1, false⟩) := by decide +kernel

/-- The same block with an estimator that counts the bytes other than zero: normalized. -/
example : (Norm.Bc1.autoNormalize roomy (.other .little fun _ => 0)
    (⟨fun _ _ => ((), .ok 0), fun _ x _ => ((), .ok (x.countP (· != 0)))⟩ : Estimator Unit Unit) false
    [0x34, 0x12, 0x34, 0x12, 0x44, 0x11, 0x05, 0x50] (List.replicate 8 0) 8 ()).map (fun r => (r.1, r.2.2.toOption)) =
    some ([0x34, 0x12, 0, 0, 0, 0, 0, 0], some ⟨.color0Only, .none, false⟩) := by decide +kernel

/-! ## C58: the choice is the best one -/

/-- The estimate for the colours that the transform with `d` really writes; `none` if the estimator
refuses. -/
def normCost (m : Machine) (data out : Buf) (size : Buf → Option Nat) (d : Norm.Bc1.Details) : Option Nat :=
  (Norm.Bc1.transformNormalize m data out (List.replicate (data.length / 2) 0) data.length d).bind fun r =>
    size (slice r.1 0 (data.length / 2))

/-- **C58, negation.** With a transparent block the search can choose details that are not the best of
its candidates: the mode `None` is measured on a buffer in which the transparent block has been
replaced by `0xFF` bytes.  Here the estimator counts zero bytes: it is shown none for `None`, but the
transform with the chosen details writes four. -/
theorem C58_not_optimal :
    let data : Buf := [0, 0, 0, 0, 0xFF, 0xFF, 0xFF, 0xFF]
    let out : Buf := List.replicate 8 7
    let m : Machine := .other .little fun _ => 0
    let cost := normCost m data out (fun x => some (x.count 0))
    (Norm.Bc1.autoNormalize roomy m (counting 0) false data out 8 ()).map (fun r => r.2.2.toOption) =
      some (some ⟨.none, .none, false⟩) ∧
    cost ⟨.none, .none, false⟩ = some 4 ∧
    cost ⟨.color0Only, .none, false⟩ = some 0 ∧
    (⟨.color0Only, .none, false⟩ : Norm.Bc1.Details) ∈ normOrder false := by decide +kernel

instance (b : Buf) : Decidable (Transparent b) := by unfold Transparent; infer_instance

/-- The blocks with `0xFF` bytes in place of the transparent ones. -/
def whitened (data : Buf) : Buf :=
  (List.range (data.length / 8)).flatMap fun i =>
    if Transparent (block 8 data i) then List.replicate 8 0xFF else block 8 data i

/-- The estimate that the search gets for `d`: for the mode `None` that of the whitened data. -/
def shownCost (m : Machine) (data out : Buf) (size : Buf → Option Nat) (d : Norm.Bc1.Details) : Option Nat :=
  normCost m (if d.norm = .none then whitened data else data) out size d

/-- **C58, what holds for all data.** If some block can be normalized, memory suffices and the estimator is
a function of the bytes (it may refuse some): the search succeeds and returns the first candidate of
least estimate among those it did not refuse, or the default if no estimate is below `usize::MAX`; the
estimates are those of `shownCost`. -/
theorem C58_auto_normalize_shown (h : Norm.Bc1.Heap) (m : Machine) (est : Estimator σ E) (useAll : Bool)
    (data out : Buf) (st st1 : σ) (k : Nat) (size : Buf → Option Nat)
    (hB : data.length % 8 = 0) (ho : data.length ≤ out.length)
    (hmem : ∀ i s, h.canAlloc i s = true)
    (hmax : est.maxSize st (data.length / 2) = (st1, .ok k))
    (hest : ∀ st x, (est.estimate st x k).2.toOption = size x)
    (hnorm : ∃ i, i < data.length / 8 ∧
      (Transparent (block 8 data i) ∨ ∃ c, c < 65536 ∧ SolidColour (block 8 data i) c)) :
    ∃ out' st' d, Norm.Bc1.autoNormalize h m est useAll data out data.length st = some (out', st', .ok d) ∧
      ((d = .default ∧ ∀ c ∈ normOrder useAll, ∀ s, shownCost m data out size c = some s → h.usizeMax ≤ s) ∨
        Norm.Bc1.BestOf (shownCost m data out size) (normOrder useAll) d) := by
  obtain ⟨n, hd⟩ : ∃ n, data.length = n * 8 := ⟨data.length / 8, by omega⟩
  have hn : data.length / 8 = n := by omega
  rw [hn] at hnorm
  have q2 : n * 8 / 2 = n * 4 := by omega
  have hkind : ∀ i, i < n → ((Norm.Bc1.kind (pix1 (block 8 data i))).1 = .transparent ↔ Transparent (block 8 data i)) := by
    intro i hi
    rw [transparent_iff (block_len (by omega) hi)]
    refine ⟨fun hk => Norm.Bc1.kind_transparent (c := (Norm.Bc1.kind (pix1 (block 8 data i))).2) (Prod.ext hk rfl),
      fun hk => by rw [Norm.Bc1.kind_of_transparent hk]⟩
  have hany : Norm.Bc1.someNorm data n = true := by
    obtain ⟨i, hi, hs⟩ := hnorm
    simp only [Norm.Bc1.someNorm, List.any_eq_true, List.mem_range, decide_eq_true_eq]
    refine ⟨i, hi, ?_⟩
    rcases hs with hs | ⟨c, hc, hs⟩
    · rw [(hkind i hi).2 hs]
      exact fun e => nomatch e
    · have hcn : (BitVec.ofNat 16 c).toNat = c := by simp; omega
      rw [Norm.Bc1.kind_of_solid ((solid_iff (block_len (by omega) hi) (BitVec.ofNat 16 c)).1 (by rw [hcn]; exact hs))]
      exact fun e => nomatch e
  have hwl : (whitened data).length = n * 8 := by
    unfold whitened
    rw [hn]
    apply flatMap_range_length
    intro i hi
    split
    · simp
    · exact block_len (by omega) hi
  -- what the candidates are tested on
  have ht : ∀ x mode, Mode.all[x]? = some mode →
      Norm.Bc1.tested data n x =
        mapBlocks 8 (Norm.Bc1.norm mode) (if mode = .none then whitened data else data) n := by
    intro x mode hx
    match x, hx with
    | 0, hx =>
      obtain rfl := Option.some.inj hx
      rw [if_pos rfl]
      have e : mapBlocks 8 (Norm.Bc1.norm .none) (whitened data) n = whitened data := by
        have : mapBlocks 8 (Norm.Bc1.norm .none) (whitened data) n = mapBlocks 8 id (whitened data) n :=
          mapBlocks_congr fun i _ => rfl
        rw [this, mapBlocks_id (by omega), ← hwl, List.take_length]
      rw [e]
      unfold Norm.Bc1.tested whitened mapBlocks
      rw [hn]
      apply flatMap_congr_range
      intro i hi
      rw [Norm.Bc1.modesOut_none (by simp)]
      simp only [hkind i hi]
    | 1, hx =>
      obtain rfl := Option.some.inj hx
      rw [if_neg (fun e => nomatch e)]
      exact mapBlocks_congr fun i hi => Norm.Bc1.modesOut_mode _ (.inl rfl) _
    | 2, hx =>
      obtain rfl := Option.some.inj hx
      rw [if_neg (fun e => nomatch e)]
      exact mapBlocks_congr fun i hi => Norm.Bc1.modesOut_mode _ (.inr rfl) _
    | x + 3, hx => simp [Mode.all] at hx
  have hcost' : ∀ d (dat : Buf), dat.length = n * 8 → normCost m dat out size d =
      size (slice (Dlt.Bc1.encode m.endian d.untransformSettings
      (mapBlocks 8 (Norm.Bc1.norm d.norm) dat n)) 0 (n * 4)) := by
    intro d dat hd
    have hl := mapBlocks_length (Norm.Bc1.norm_length d.norm) (show n * 8 ≤ dat.length by omega)
    obtain ⟨w, _, e⟩ := Norm.Bc1.transformNormalize_eq m d hd (by omega : n * 8 ≤ out.length)
      (by simp; omega : n * 4 ≤ (List.replicate (dat.length / 2) (0 : Byte)).length)
    rw [normCost, hd] at *
    rw [e, Option.bind_some, q2]
    dsimp only
    rw [slice_append_left _ _ _ _ (by rw [Dlt.Bc1.encode_length _ _ (by omega), hl]; omega)]
  have hcost : ∀ d, shownCost m data out size d = size (slice (Dlt.Bc1.encode m.endian d.untransformSettings
      (mapBlocks 8 (Norm.Bc1.norm d.norm) (if d.norm = .none then whitened data else data) n)) 0 (n * 4)) :=
    fun d => hcost' d _ (by split <;> assumption)
  obtain ⟨s0, s1, s2, e0, e1, e2, hfst, hc⟩ := Norm.Bc1.candidates_form m useAll h hd
  have body : ∃ out' st' d, Norm.Bc1.autoBody h m est useAll data out data.length k st1 = some (out', st', .ok d) ∧
      ((d = .default ∧ ∀ c ∈ normOrder useAll, ∀ s, shownCost m data out size c = some s → h.usizeMax ≤ s) ∨
        Norm.Bc1.BestOf (shownCost m data out size) (normOrder useAll) d) := by
    unfold Norm.Bc1.autoBody
    rw [hd, Norm.Bc1.allModes_fresh h hd, ← hd]
    simp only [Option.bind_eq_bind, Option.bind_some, hany, if_true, hmem, Bool.and_self,
      List.getElem?_cons_zero, List.getElem?_cons_succ]
    rw [hd, e0, e1, e2]
    simp only [Option.bind_some]
    obtain ⟨w, st', best, t1, t2, t3⟩ := Norm.Bc1.testLoop_best m est k (shownCost m data out size)
      (Norm.Bc1.candidates useAll [s0, s1, s2]) (h.buf 7 (n * 8 / 2)) st1 .default h.usizeMax
      (n := n) (fun c hcm => by
        obtain ⟨x, rest, hm, hx⟩ := hc c hcm
        refine ⟨_, rest, Norm.Bc1.tested_length hd x, hx, fun st => ?_⟩
        rw [hest, hcost, ht x _ hm])
      (by rw [Norm.Bc1.Heap.buf_length]; omega)
    rw [t1]
    simp only [Option.bind_some]
    obtain ⟨w', _, e⟩ := Norm.Bc1.transformNormalize_eq m best hd (by omega : n * 8 ≤ out.length) t2
    rw [e]
    refine ⟨_, st', best, rfl, ?_⟩
    rw [hfst] at t3
    exact t3.imp id And.left
  unfold Norm.Bc1.autoNormalize
  rw [hmax]
  simp only [hmem, Bool.and_self, if_true]
  split
  · rename_i hk; rw [hk] at body; exact body
  · exact body

/-- **C58, the other data.** If no block can be normalized and memory suffices, the result is that of
`transform_bc1_auto` (see C17, C20 to C22), reported with the mode `None`. -/
theorem C58_nothing_to_normalize (h : Norm.Bc1.Heap) (m : Machine) (est : Estimator σ E) (useAll : Bool)
    (data out : Buf) (st st1 : σ) (k : Nat) (hB : data.length % 8 = 0)
    (hmem : ∀ i s, h.canAlloc i s = true)
    (hmax : est.maxSize st (data.length / 2) = (st1, .ok k))
    (hnorm : ∀ i, i < data.length / 8 →
      ¬ Transparent (block 8 data i) ∧ ∀ c, c < 65536 → ¬ SolidColour (block 8 data i) c) :
    Norm.Bc1.autoNormalize h m est useAll data out data.length st =
      (Dlt.Bc1.transformAuto ⟨fun _ => true, h.usizeMax⟩ m est useAll data out data.length st1).map
        fun r => (r.1, r.2.1, r.2.2.map fun s => ⟨.none, s.decorr, s.split⟩) := by
  obtain ⟨n, hd⟩ : ∃ n, data.length = n * 8 := ⟨data.length / 8, by omega⟩
  have hn : data.length / 8 = n := by omega
  rw [hn] at hnorm
  have hany : Norm.Bc1.someNorm data n = false := by
    rw [Bool.eq_false_iff]
    simp only [Norm.Bc1.someNorm, ne_eq, List.any_eq_true, List.mem_range, decide_eq_true_eq, not_exists, not_and, not_not]
    intro i hi
    obtain ⟨h1, h2⟩ := hnorm i hi
    have hb := block_len (B := 8) (n := n) (data := data) (by omega) hi
    rcases hk : Norm.Bc1.kind (pix1 (block 8 data i)) with ⟨a, c⟩
    cases a with
    | transparent => exact (h1 ((transparent_iff hb).2 (Norm.Bc1.kind_transparent hk))).elim
    | solid => exact (h2 c.toNat c.isLt ((solid_iff hb c).2 (Norm.Bc1.kind_solid hk))).elim
    | _ => rfl
  have hc8 : h.canAlloc 8 = fun _ => true := funext fun s => hmem 8 s
  have body : ∀ comp, Norm.Bc1.autoBody h m est useAll data out data.length comp st1 =
      (Dlt.Bc1.transformAuto ⟨fun _ => true, h.usizeMax⟩ m est useAll data out data.length st1).map
        fun r => (r.1, r.2.1, r.2.2.map fun s => ⟨.none, s.decorr, s.split⟩) := by
    intro comp
    unfold Norm.Bc1.autoBody
    rw [hd, Norm.Bc1.allModes_fresh h hd, ← hd]
    simp only [Option.bind_eq_bind, Option.bind_some, hany, hc8]
    rcases Dlt.Bc1.transformAuto ⟨fun _ => true, h.usizeMax⟩ m est useAll data out data.length st1 with _ | ⟨o, s, r⟩ <;> rfl
  unfold Norm.Bc1.autoNormalize
  rw [hmax]
  simp only [hmem, Bool.and_self, if_true, body, ite_self]

/-- The hypothesis holds for a block of two colours. -/
example : ¬ Transparent (block 8 [1, 2, 3, 4, 5, 6, 7, 8] 0) ∧
    ∀ c, c < 65536 → ¬ SolidColour (block 8 [1, 2, 3, 4, 5, 6, 7, 8] 0) c := by
  refine ⟨by decide +kernel, fun c _ hs => ?_⟩
  have h := (hs 0 (by omega)).trans (hs 2 (by omega)).symm
  exact absurd h (by decide +kernel)

/-- In the example of `C58_not_optimal` the search is shown no zero byte for the mode `None`. -/
example : shownCost (.other .little fun _ => 0) [0, 0, 0, 0, 0xFF, 0xFF, 0xFF, 0xFF] (List.replicate 8 7)
    (fun x => some (x.count 0)) ⟨.none, .none, false⟩ = some 0 ∧
    Transparent (block 8 [0, 0, 0, 0, 0xFF, 0xFF, 0xFF, 0xFF] 0) := by decide +kernel

/-- **C58, partial.** If some block can be normalized, none is transparent, memory suffices and the estimator is
a function of the bytes (it may refuse some): the search succeeds and returns the first candidate of
least estimate among those it did not refuse, or the default if no estimate is below `usize::MAX`.
Missing: data with transparent blocks, where this is false (`C58_not_optimal`); see `C58_auto_normalize_shown`.
Data without a block to normalize goes to `transform_bc1_auto` (C20). -/
theorem C58_auto_normalize_optimal_partial (h : Norm.Bc1.Heap) (m : Machine) (est : Estimator σ E) (useAll : Bool)
    (data out : Buf) (st st1 : σ) (k : Nat) (size : Buf → Option Nat)
    (hB : data.length % 8 = 0) (ho : data.length ≤ out.length)
    (hmem : ∀ i s, h.canAlloc i s = true)
    (hmax : est.maxSize st (data.length / 2) = (st1, .ok k))
    (hest : ∀ st x, (est.estimate st x k).2.toOption = size x)
    (hsolid : ∃ i, i < data.length / 8 ∧ ∃ c, c < 65536 ∧ SolidColour (block 8 data i) c)
    (htrans : ∀ i, i < data.length / 8 → ¬ Transparent (block 8 data i)) :
    ∃ out' st' d, Norm.Bc1.autoNormalize h m est useAll data out data.length st = some (out', st', .ok d) ∧
      ((d = .default ∧ ∀ c ∈ normOrder useAll, ∀ s, normCost m data out size c = some s → h.usizeMax ≤ s) ∨
        Norm.Bc1.BestOf (normCost m data out size) (normOrder useAll) d) := by
  have hw : whitened data = data := by
    have : whitened data = mapBlocks 8 id data (data.length / 8) :=
      flatMap_congr_range fun i hi => if_neg (htrans i hi)
    rw [this, mapBlocks_id (by omega), show data.length / 8 * 8 = data.length by omega, List.take_length]
  have hs : shownCost m data out size = normCost m data out size := by
    funext d
    rw [shownCost, hw, ite_self]
  rw [← hs]
  obtain ⟨i, hi, hc⟩ := hsolid
  exact C58_auto_normalize_shown h m est useAll data out st st1 k size hB ho hmem hmax hest ⟨i, hi, .inr hc⟩

/-- The hypotheses hold for one solid block; the choice is not the first candidate. -/
example : (∃ c, c < 65536 ∧ SolidColour [0x34, 0x12, 0x34, 0x12, 0x44, 0x11, 0x05, 0x50] c) ∧
    ¬ Transparent [0x34, 0x12, 0x34, 0x12, 0x44, 0x11, 0x05, 0x50] ∧
    (Norm.Bc1.autoNormalize roomy (.other .little fun _ => 0) (counting 0x12) true
      [0x34, 0x12, 0x34, 0x12, 0x44, 0x11, 0x05, 0x50] (List.replicate 8 0) 8 ()).map (fun r => r.2.2.toOption) =
      some (some ⟨.none, .v2, false⟩) := by
  refine ⟨⟨0x1234, by decide, ?_⟩, ?_, by decide +kernel⟩
  · unfold SolidColour; decide +kernel
  · unfold Transparent; decide +kernel

end Dlt.Props
