import Verif.Model.BenchApi
import Verif.Lemmas.Bc1
import Verif.Lemmas.Bc1Bench
import Verif.Lemmas.Bc2Bench
import Verif.Lemmas.Bc3Bench
import Verif.Lemmas.SplitBench
import Verif.Lemmas.Bc2
import Verif.Lemmas.Bc3
import Verif.Props.Bc1
import Verif.Props.Split
/-!
# C71: the kernels exported for benchmarking are interchangeable with the production code
-/

namespace Dlt.Props
open Dlt Spec

/-- What is asked of a transform kernel without options: on any input of whole blocks and any
sufficiently long output buffer it ends without leaving the buffers, writes the sections `fs` of the
blocks one after the other and changes nothing behind them. -/
def Lays (B : Nat) (fs : List (Buf → Buf)) (f : Buf → Buf → Nat → Option Buf) : Prop :=
  ∀ data out : Buf, data.length % B = 0 → data.length ≤ out.length →
    f data out data.length = some (columns B fs data ++ out.drop data.length)

/-- What is asked of an untransform kernel: it undoes the layout. -/
def Unlays (B : Nat) (fs : List (Buf → Buf)) (g : Buf → Buf → Nat → Option Buf) : Prop :=
  ∀ data out : Buf, data.length % B = 0 → data.length ≤ out.length →
    g (columns B fs data) out data.length = some (data ++ out.drop data.length)

/-! ## BC1 -/

/-- The two sections of BC1: colours, indices. -/
def bc1Sections : List (Buf → Buf) := [fun b => slice b 0 4, fun b => slice b 4 4]

theorem bc1Sections_eq {data : Buf} {n : Nat} (hn : data.length = n * 8) :
    columns 8 bc1Sections data = columns 8 (bc1Fields id false) data := by
  apply columns_congr (by omega) hn
  intro b hb
  have := slice_append_slice b 0 2 2
  simp only [bc1Sections, bc1Fields, Bool.false_eq_true, if_false, id, List.map_cons, List.map_nil]
  rw [this]

theorem bc1_lays {f : Buf → Buf → Nat → Option Buf}
    (h : ∀ {inp : Buf} {n : Nat} {T out tail : Buf}, inp.length = n * 8 →
      T = columns 8 (bc1Fields id false) inp ++ tail → Agree (DoneT n [4, 4] 0) T out →
      Ok (f inp out (n * 8)) (Agree (DoneT n [4, 4] n) T)) : Lays 8 bc1Sections f := by
  intro data out h8 ho
  obtain ⟨n, hn⟩ : ∃ n, data.length = n * 8 := ⟨data.length / 8, by omega⟩
  rw [bc1Sections_eq hn, hn]
  have ha := agree_startT (columns_length (by omega) hn (Bc1.fits (col := id) (fun _ h => h) false))
    (by rw [Bc1.widths_sum]; rw [hn] at ho; exact ho)
  rw [Bc1.widths_sum] at ha
  exact ok_endT (n := n) (ws := [4, 4]) (h hn rfl ha)

/-- **C71** (BC1, transform). Every exported transform kernel, in either byte order, writes the two
sections. -/
theorem C71_bc1_transforms :
    ∀ k ∈ Bc1.benchTransforms, ∀ e : Endian, Lays 8 bc1Sections (k.2 e) := by
  have q2 : ∀ n, n * 8 / 2 = n * 4 := by omega
  simp only [Bc1.benchTransforms, List.forall_mem_cons]
  refine ⟨?_, ?_, ?_, ?_, ?_, ?_, ?_, ?_, ?_, ?_, ?_, ?_, ?_, ?_, ?_, ?_, ?_, ?_, ?_, ?_, ?_, ?_, ?_, ?_, by simp⟩ <;>
    intro e <;> apply bc1_lays <;> intro inp n T out tail hd hT ha
  · simp only [Bc1.transformSse2, q2]; exact Bc1.transformSse2Ptrs_ok hd hT ha
  · simp only [Bc1.transformAvx2, q2]; exact Bc1.transformAvx2Ptrs_ok hd hT ha
  · simp only [Bc1.transformPortable, q2]
    simpa using Bc1.transformPtrs_ok e (k := 0) hd hT ha (by omega)
  · simp only [Bc1.transformAvx512, q2]; exact Bc1.transformAvx512Ptrs_ok hd hT ha
  · exact Bc1.benchPunpckhqdq2_ok hd hT ha
  · exact Bc1.benchPunpckhqdq4_ok hd hT ha
  · exact Bc1.benchShufps2_ok hd hT ha
  · exact Bc1.benchGather_ok hd hT ha
  · exact Bc1.benchPermute_ok hd hT ha
  · exact Bc1.benchPermute2_ok hd hT ha
  · exact Bc1.benchShufflePermute_ok hd hT ha
  · exact Bc1.benchPermute512x2_ok hd hT ha
  · exact Bc1.benchU32x2_ok e hd hT ha
  · exact Bc1.benchU32x4_ok e hd hT ha
  · exact Bc1.benchU32x8_ok e hd hT ha
  · exact Bc1.benchShift_ok e hd hT ha
  · exact Bc1.benchShift_ok e hd hT ha
  · exact Bc1.benchShift2_ok e hd hT ha
  · exact Bc1.benchShift4_ok e hd hT ha
  · exact Bc1.benchShift8_ok e hd hT ha
  · exact Bc1.benchShiftCount_ok e hd hT ha
  · exact Bc1.benchShiftCount2_ok e hd hT ha
  · exact Bc1.benchShiftCount4_ok e hd hT ha
  · exact Bc1.benchShiftCount8_ok e hd hT ha

theorem bc1_unsoa {g : Buf → Buf → Nat → Option Buf}
    (h : ∀ {inp : Buf} {n : Nat} {T out tail : Buf}, inp.length = n * 8 →
      T = unsoa n (Bc1.widths false) (Bc1.unFields id false) inp ++ tail → Agree (DoneU n 8 0) T out →
      Ok (g inp out (n * 8)) (Agree (DoneU n 8 n) T)) (m : Machine) (data out : Buf)
    (h8 : data.length % 8 = 0) (ho : data.length ≤ out.length) :
    g data out data.length = Bc1.untransformWithSettings m data out data.length ⟨.none, false⟩ := by
  obtain ⟨n, hn⟩ : ∃ n, data.length = n * 8 := ⟨data.length / 8, by omega⟩
  rw [hn] at ho ⊢
  rw [Bc1.untransform_eq m _ hn ho, ← Bc1.unsoa_none m.endian false hn]
  have ha := agree_startU (unsoa_length (inp := data) (n := n) (B := 8)
    (by rw [Bc1.widths_sum]; omega) (Bc1.unFields_length (col := id) (fun _ h => h) false)) ho
  exact ok_endU (n := n) (B := 8) (h hn rfl ha)

/-- **C71** (BC1, untransform). Every exported untransform kernel, in either byte order, gives the
result of the production function for the settings without decorrelation and splitting, on any
machine and any input. -/
theorem C71_bc1_untransforms : ∀ k ∈ Bc1.benchUntransforms, ∀ (e : Endian) (m : Machine) (data out : Buf),
    data.length % 8 = 0 → data.length ≤ out.length →
    k.2 e data out data.length =
      Bc1.untransformWithSettings m data out data.length ⟨.none, false⟩ := by
  have q2 : ∀ n, n * 8 / 2 = n * 4 := by omega
  simp only [Bc1.benchUntransforms, List.forall_mem_cons]
  refine ⟨?_, ?_, ?_, ?_, ?_, ?_, ?_, ?_, ?_, ?_, ?_, ?_, ?_, by simp⟩ <;>
    intro e m data out h8 ho <;> refine bc1_unsoa ?_ m data out h8 ho <;> intro inp n T out tail hd hT ha
  · simp only [Bc1.untransformPortable, q2]
    simpa using Bc1.untransformPtrs_ok e (k := 0) hd hT ha (by omega)
  · simp only [Bc1.untransformSse2, q2]; exact Bc1.untransformSse2Ptrs_ok hd hT ha
  · simp only [Bc1.untransformAvx2, q2]; exact Bc1.untransformAvx2Ptrs_ok hd hT ha
  · simp only [Bc1.untransformAvx512, q2]; exact Bc1.untransformAvx512Ptrs_ok hd hT ha
  · exact Bc1.benchUnUnpck_ok hd hT ha
  · exact Bc1.benchUnUnpck4_ok hd hT ha
  · exact Bc1.benchUnPermd_ok hd hT ha
  · exact Bc1.benchUnUnpckAvx2_ok hd hT ha
  · exact Bc1.benchUnUnpckAvx2x2_ok hd hT ha
  · exact Bc1.benchUnPermute512_ok hd hT ha
  · exact Bc1.benchUnU32x2_ok e hd hT ha
  · exact Bc1.benchUnU32x4_ok e hd hT ha
  · exact Bc1.benchUnU32x8_ok e hd hT ha

/-- **C71** (BC1, transform, against the production function). -/
theorem C71_bc1_production : ∀ k ∈ Bc1.benchTransforms, ∀ (e : Endian) (m : Machine) (data out : Buf),
    data.length % 8 = 0 → data.length ≤ out.length →
    k.2 e data out data.length =
      Bc1.transformWithSettings m data out data.length ⟨.none, false⟩ := by
  intro k hk e m data out h8 ho
  obtain ⟨n, hn⟩ : ∃ n, data.length = n * 8 := ⟨data.length / 8, by omega⟩
  rw [C71_bc1_transforms k hk e data out h8 ho, bc1Sections_eq hn, hn,
    Bc1.transform_eq m _ hn (by omega), Bc1.columns_none m.endian false hn]

theorem bc1Sections_length {data : Buf} (h8 : data.length % 8 = 0) :
    (columns 8 bc1Sections data).length = data.length := by
  obtain ⟨n, hn⟩ : ∃ n, data.length = n * 8 := ⟨data.length / 8, by omega⟩
  rw [bc1Sections_eq hn, columns_length (by omega) hn (Bc1.fits (col := id) (fun _ h => h) false),
    Bc1.widths_sum, hn]

/-- **C71** (BC1). Every exported untransform kernel undoes the layout. -/
theorem C71_bc1_unlays :
    ∀ k ∈ Bc1.benchUntransforms, ∀ e : Endian, Unlays 8 bc1Sections (k.2 e) := by
  intro k hk e data out h8 ho
  have hl := bc1Sections_length h8
  have h := C71_bc1_untransforms k hk e (.other .little (fun _ => 0)) (columns 8 bc1Sections data) out
    (by omega) (by omega)
  have hi := (Bc1.untransform_impl (.other .little (fun _ => 0)) ⟨.none, false⟩ (columns 8 bc1Sections data)
    out (by omega) (by omega)).2
  obtain ⟨n, hn⟩ : ∃ n, data.length = n * 8 := ⟨data.length / 8, by omega⟩
  rw [hl] at h hi
  rw [h]
  refine hi.trans ?_
  rw [bc1Sections_eq hn, Bc1.columns_none .little false hn]
  congr 2
  exact Bc1.decode_encode .little ⟨.none, false⟩ data h8

/-- **C71** (BC1). Any exported untransform kernel undoes any exported transform kernel, even
between machines of different byte order. -/
theorem C71_bc1_roundtrip : ∀ t ∈ Bc1.benchTransforms, ∀ u ∈ Bc1.benchUntransforms,
    ∀ (e e' : Endian) (data out out' : Buf), data.length % 8 = 0 → data.length ≤ out.length →
    data.length ≤ out'.length →
    (t.2 e data out data.length).bind
        (fun r => u.2 e' (r.take data.length) out' data.length) =
      some (data ++ out'.drop data.length) := by
  intro t ht u hu e e' data out out' h8 ho ho'
  rw [C71_bc1_transforms t ht e data out h8 ho, Option.bind_some]
  have hl := bc1Sections_length h8
  rw [List.take_left' hl]
  exact C71_bc1_unlays u hu e' data out' h8 ho'

/-- Two concrete blocks. -/
example : Bc1.benchShiftCount2 .big [0, 1, 2, 3, 4, 5, 6, 7, 10, 11, 12, 13, 14, 15, 16, 17]
      (List.replicate 17 9) 16 =
      some [0, 1, 2, 3, 10, 11, 12, 13, 4, 5, 6, 7, 14, 15, 16, 17, 9] := by decide

/-! ## What all formats share -/

theorem lays_of {B : Nat} {fs gs : List (Buf → Buf)} {ws : List Nat} {f : Buf → Buf → Nat → Option Buf}
    (hB : 0 < B) (hs : ws.sum = B) (hf : Fits B gs ws)
    (hc : ∀ b : Buf, b.length = B → fs.map (fun f => f b) = gs.map (fun f => f b))
    (h : ∀ {inp : Buf} {n : Nat} {T out tail : Buf}, inp.length = n * B →
      T = columns B gs inp ++ tail → Agree (DoneT n ws 0) T out →
      Ok (f inp out (n * B)) (Agree (DoneT n ws n) T)) : Lays B fs f := by
  intro data out hm ho
  obtain ⟨n, hn⟩ : ∃ n, data.length = n * B :=
    ⟨data.length / B, by rw [Nat.div_mul_cancel (Nat.dvd_of_mod_eq_zero hm)]⟩
  rw [columns_congr hB hn hc, hn]
  have ha := agree_startT (columns_length hB hn hf) (by rw [hs]; rw [hn] at ho; exact ho)
  rw [hs] at ha
  exact ok_endT (n := n) (ws := ws) (h hn rfl ha)

/-! ## BC2 -/

/-- The three sections of BC2: alphas, colours, indices. -/
def bc2Sections : List (Buf → Buf) :=
  [fun b => slice b 0 8, fun b => slice b 8 4, fun b => slice b 12 4]

theorem bc2_lays {f : Buf → Buf → Nat → Option Buf}
    (h : ∀ {inp : Buf} {n : Nat} {T out tail : Buf}, inp.length = n * 16 →
      T = columns 16 (bc2Fields id false) inp ++ tail → Agree (DoneT n [8, 4, 4] 0) T out →
      Ok (f inp out (n * 16)) (Agree (DoneT n [8, 4, 4] n) T)) : Lays 16 bc2Sections f := by
  refine lays_of (ws := [8, 4, 4]) (by omega) rfl (Bc2.fits_std (col := id) (fun _ h => h)) ?_ h
  intro b hb
  have := slice_append_slice b 8 2 2
  simp only [bc2Sections, bc2Fields, Bool.false_eq_true, if_false, id, List.map_cons, List.map_nil]
  rw [this]

/-- **C71** (BC2, transform). Every exported transform kernel, in either byte order, writes the
three sections. -/
theorem C71_bc2_transforms :
    ∀ k ∈ Bc2.benchTransforms, ∀ e : Endian, Lays 16 bc2Sections (k.2 e) := by
  have q2 : ∀ n, n * 16 / 2 = n * 8 := by omega
  have q4 : ∀ n, n * 8 + n * 16 / 4 = n * 12 := by omega
  simp only [Bc2.benchTransforms, List.forall_mem_cons]
  refine ⟨?_, ?_, ?_, ?_, ?_, ?_, ?_, ?_, ?_, ?_, ?_, ?_, by simp⟩ <;>
    intro e <;> apply bc2_lays <;> intro inp n T out tail hd hT ha
  · simp only [Bc2.transformPortable, q2, q4]
    simpa using Bc2.transformPtrs_ok e (k := 0) hd hT ha (by omega)
  · exact Bc2.benchU32x2_ok e hd hT ha
  · exact Bc2.benchU32x4_ok e hd hT ha
  · simp only [Bc2.transformAvx2, q2, q4]; exact Bc2.transformAvx2Ptrs_ok hd hT ha
  · simp only [Bc2.transformSse2V2, q2, q4]; exact Bc2.transformSse2V2Ptrs_ok hd hT ha
  · simp only [Bc2.transformSse2V3, q2, q4]; exact Bc2.transformSse2V3Ptrs_ok hd hT ha
  · exact Bc2.benchShuffleV1_ok hd hT ha
  · exact Bc2.benchShuffleV1x2_ok hd hT ha
  · simp only [Bc2.transformAvx512, q2, q4]; exact Bc2.transformAvx512Ptrs_ok hd hT ha
  · exact Bc2.benchPermute512_ok hd hT ha
  · exact Bc2.benchPermute512Intrinsics_ok hd hT ha
  · exact Bc2.transformAvx512I_ok hd hT ha

/-- **C71** (BC2, transform, against the production function). -/
theorem C71_bc2_production : ∀ k ∈ Bc2.benchTransforms, ∀ (e : Endian) (m : Machine) (data out : Buf),
    data.length % 16 = 0 → data.length ≤ out.length →
    k.2 e data out data.length =
      Bc2.transformWithSettings m data out data.length ⟨.none, false⟩ := by
  intro k hk e m data out h8 ho
  obtain ⟨n, hn⟩ : ∃ n, data.length = n * 16 := ⟨data.length / 16, by omega⟩
  rw [C71_bc2_transforms k hk e data out h8 ho, hn, Bc2.transform_eq m _ hn (by omega),
    Bc2.columns_col (fun bs h => encCol_none m.endian h) false hn]
  congr 2
  apply columns_congr (by omega) hn
  intro b hb
  have := slice_append_slice b 8 2 2
  simp only [bc2Sections, bc2Fields, Bool.false_eq_true, if_false, id, List.map_cons, List.map_nil]
  rw [this]

/-- **C71** (BC2, untransform). -/
theorem C71_bc2_untransforms : ∀ k ∈ Bc2.benchUntransforms, ∀ (e : Endian) (m : Machine) (data out : Buf),
    data.length % 16 = 0 → data.length ≤ out.length →
    k.2 e data out data.length =
      Bc2.untransformWithSettings m data out data.length ⟨.none, false⟩ := by
  have q2 : ∀ n, n * 16 / 2 = n * 8 := by omega
  have q4 : ∀ n, n * 8 + n * 16 / 4 = n * 12 := by omega
  simp only [Bc2.benchUntransforms, List.forall_mem_cons]
  refine ⟨?_, ?_, ?_, ?_, ?_, by simp⟩ <;>
    intro e m data out h8 ho <;>
    obtain ⟨n, hd⟩ : ∃ n, data.length = n * 16 := ⟨data.length / 16, by omega⟩ <;>
    rw [hd] at ho ⊢ <;>
    rw [Bc2.untransform_eq m _ hd ho, ← Bc2.unsoa_none m.endian false hd] <;>
    have ha := agree_startU (unsoa_length (inp := data) (n := n) (B := 16)
      (by rw [Bc2.widths_sum]; omega) (Bc2.unFields_length (col := id) (fun _ h => h) false)) ho <;>
    apply ok_endU (n := n) (B := 16)
  · simp only [Bc2.untransformPortable, q2, q4]
    simpa using Bc2.untransformPtrs_ok e (k := 0) hd rfl ha (by omega)
  · simp only [Bc2.untransformSse2, q2, q4]; exact Bc2.untransformSse2Ptrs_ok hd rfl ha
  · simp only [Bc2.untransformAvx2, q2, q4]; exact Bc2.untransformAvx2Ptrs_ok hd rfl ha
  · simp only [Bc2.untransformAvx512, q2, q4]; exact Bc2.untransformAvx512Ptrs_ok hd rfl ha
  · simp only [Bc2.untransformAvx512, q2, q4]; exact Bc2.untransformAvx512IPtrs_ok hd rfl ha

/-- **C71** (BC2). Any exported untransform kernel undoes any exported transform kernel, even
between machines of different byte order. -/
theorem C71_bc2_roundtrip : ∀ t ∈ Bc2.benchTransforms, ∀ u ∈ Bc2.benchUntransforms,
    ∀ (e e' : Endian) (data out out' : Buf), data.length % 16 = 0 → data.length ≤ out.length →
    data.length ≤ out'.length →
    (t.2 e data out data.length).bind
        (fun r => u.2 e' (r.take data.length) out' data.length) =
      some (data ++ out'.drop data.length) := by
  intro t ht u hu e e' data out out' h8 ho ho'
  have hm := Bc2.transform_impl (.other .little (fun _ => 0)) ⟨.none, false⟩ data out h8 ho
  dsimp only [Machine.endian] at hm
  rw [C71_bc2_production t ht e (.other .little (fun _ => 0)) data out h8 ho, hm.2, Option.bind_some,
    List.take_left' hm.1]
  have hl : (Bc2.encode .little ⟨.none, false⟩ data).length = data.length := hm.1
  have := C71_bc2_untransforms u hu e' (.other .little (fun _ => 0))
    (Bc2.encode .little ⟨.none, false⟩ data) out' (by omega) (by omega)
  have hu' := (Bc2.untransform_impl (.other .little (fun _ => 0)) ⟨.none, false⟩
    (Bc2.encode .little ⟨.none, false⟩ data) out' (by omega) (by omega)).2
  rw [hl] at this hu'
  refine this.trans (hu'.trans ?_)
  congr 2
  exact Bc2.decode_encode .little ⟨.none, false⟩ data h8

/-- Seventeen concrete blocks of all ones: the oversized stores of `permute_512` do no harm. -/
example : Bc2.benchPermute512 (List.replicate 272 1) (List.replicate 273 0) 272 =
    some (List.replicate 272 1 ++ [0]) := by decide +kernel

/-! ## BC3 -/

/-- The four sections of BC3: alpha endpoints, alpha indices, colours, colour indices. -/
def bc3Sections : List (Buf → Buf) :=
  [fun b => slice b 0 2, fun b => slice b 2 6, fun b => slice b 8 4, fun b => slice b 12 4]

/-- The five sections of BC3 with split alpha endpoints. -/
def bc3AlphaSections : List (Buf → Buf) :=
  [fun b => slice b 0 1, fun b => slice b 1 1, fun b => slice b 2 6, fun b => slice b 8 4,
    fun b => slice b 12 4]

theorem bc3_congr (b : Buf) :
    bc3Sections.map (fun f => f b) = (bc3Fields id false false).map (fun f => f b) := by
  have := slice_append_slice b 8 2 2
  simp only [bc3Sections, bc3Fields, Bool.false_eq_true, if_false, id, List.map_cons, List.map_nil,
    List.cons_append, List.nil_append]
  rw [this]

theorem bc3Alpha_congr (b : Buf) :
    bc3AlphaSections.map (fun f => f b) = (bc3Fields id true false).map (fun f => f b) := by
  have := slice_append_slice b 8 2 2
  simp only [bc3AlphaSections, bc3Fields, Bool.false_eq_true, if_false, if_true, id, List.map_cons,
    List.map_nil, List.cons_append, List.nil_append]
  rw [this]

/-- **C71** (BC3, transform). Every exported transform kernel, in either byte order, writes the four
sections. -/
theorem C71_bc3_transforms :
    ∀ k ∈ Bc3.benchTransforms, ∀ e : Endian, Lays 16 bc3Sections (k.2 e) := by
  have q16 : ∀ n, n * 16 / 16 = n := by omega
  simp only [Bc3.benchTransforms, List.forall_mem_cons]
  refine ⟨?_, ?_, ?_, ?_, ?_, by simp⟩ <;>
    intro e <;>
    refine lays_of (ws := [2, 6, 4, 4]) (by omega) rfl (Bc3.fits00 (col := id) (fun _ h => h))
      (fun b _ => bc3_congr b) ?_ <;> intro inp n T out tail hd hT ha
  · simp only [Bc3.transformPortable, q16]
    simpa using Bc3.transformPtrs_ok e (k := 0) hd hT ha (by omega)
  · simp only [Bc3.transformAvx2, q16]; exact Bc3.transformAvx2Ptrs_ok _ hd hT ha
  · simp only [Bc3.transformAvx2, q16]; exact Bc3.transformAvx2Ptrs_ok _ hd hT ha
  · exact Bc3.benchU32x2_ok e hd hT ha
  · simp only [Bc3.transformVbmi, q16]; exact Bc3.transformVbmiPtrs_ok hd hT ha

/-- **C71** (BC3, transform with split alpha endpoints). -/
theorem C71_bc3_alpha_transforms :
    ∀ k ∈ Bc3.benchAlphaTransforms, ∀ e : Endian, Lays 16 bc3AlphaSections (k.2 e) := by
  have q16 : ∀ n, n * 16 / 16 = n := by omega
  simp only [Bc3.benchAlphaTransforms, List.forall_mem_cons]
  refine ⟨?_, ?_, ?_, ?_, by simp⟩ <;>
    intro e <;>
    refine lays_of (ws := [1, 1, 6, 4, 4]) (by omega) rfl (Bc3.fits10 (col := id) (fun _ h => h))
      (fun b _ => bc3Alpha_congr b) ?_ <;> intro inp n T out tail hd hT ha <;> simp only [q16]
  · simpa using Bc3.transformAlphaGeneric_ok e (k := 0) hd hT ha (by omega)
  · exact Bc3.transformAlphaAvx2_ok _ hd hT ha
  · exact Bc3.transformAlphaAvx2_ok _ hd hT ha
  · exact Bc3.transformAlphaVbmi_ok hd hT ha

/-- **C71** (BC3, transform, against the production function). -/
theorem C71_bc3_production (e : Endian) (m : Machine) (data out : Buf) (h8 : data.length % 16 = 0)
    (ho : data.length ≤ out.length) :
    (∀ k ∈ Bc3.benchTransforms, k.2 e data out data.length =
      Bc3.transformWithSettings m data out data.length ⟨.none, false, false⟩) ∧
    (∀ k ∈ Bc3.benchAlphaTransforms, k.2 e data out data.length =
      Bc3.transformWithSettings m data out data.length ⟨.none, true, false⟩) := by
  obtain ⟨n, hn⟩ : ∃ n, data.length = n * 16 := ⟨data.length / 16, by omega⟩
  refine ⟨fun k hk => ?_, fun k hk => ?_⟩
  · rw [C71_bc3_transforms k hk e data out h8 ho, hn, Bc3.transform_eq m _ hn (by omega),
      Bc3.columns_col (fun bs h => encCol_none m.endian h) false false hn]
    congr 2
    exact columns_congr (by omega) hn (fun b _ => bc3_congr b)
  · rw [C71_bc3_alpha_transforms k hk e data out h8 ho, hn, Bc3.transform_eq m _ hn (by omega),
      Bc3.columns_col (fun bs h => encCol_none m.endian h) true false hn]
    congr 2
    exact columns_congr (by omega) hn (fun b _ => bc3Alpha_congr b)

/-- **C71** (BC3, untransform). `u` is arbitrary: the unspecified register contents do not matter. -/
theorem C71_bc3_untransforms (u : Nat → Byte) (e : Endian) (m : Machine) (data out : Buf)
    (h8 : data.length % 16 = 0) (ho : data.length ≤ out.length) :
    (∀ k ∈ Bc3.benchUntransforms u, k.2 e data out data.length =
      Bc3.untransformWithSettings m data out data.length ⟨.none, false, false⟩) ∧
    (∀ k ∈ Bc3.benchAlphaUntransforms, k.2 e data out data.length =
      Bc3.untransformWithSettings m data out data.length ⟨.none, true, false⟩) := by
  have q16 : ∀ n, n * 16 / 16 = n := by omega
  obtain ⟨n, hd⟩ : ∃ n, data.length = n * 16 := ⟨data.length / 16, by omega⟩
  rw [hd] at ho
  constructor
  · simp only [Bc3.benchUntransforms, List.forall_mem_cons]
    refine ⟨?_, ?_, ?_, ?_, ?_, ?_, ?_, by simp⟩ <;>
      rw [hd, Bc3.untransform_eq m _ hd ho, ← Bc3.unsoa_none m.endian false false hd] <;>
      have ha := agree_startU (unsoa_length (inp := data) (n := n) (B := 16)
        (by rw [Bc3.widths_sum]; omega) (Bc3.unFields_length (col := id) (fun _ h => h) false false)) ho <;>
      apply ok_endU (n := n) (B := 16)
    · exact Bc3.benchUnU32_ok e hd rfl ha
    · exact Bc3.untransformV2_ok e hd rfl ha
    · exact Bc3.benchUnU64_ok e hd rfl ha
    · exact Bc3.untransformSse2x32_ok hd rfl ha
    · simp only [Bc3.untransformSse2x64, q16]; exact Bc3.untransformSse2x64Ptrs_ok hd rfl ha
    · simp only [Bc3.untransformVbmi64, q16]; exact Bc3.untransformVbmi64Ptrs_ok hd rfl ha
    · simp only [Bc3.untransformVbmi32, q16]; exact Bc3.untransformVbmi32Ptrs_ok _ hd rfl ha
  · simp only [Bc3.benchAlphaUntransforms, List.forall_mem_cons]
    refine ⟨?_, ?_, by simp⟩ <;>
      rw [hd, Bc3.untransform_eq m _ hd ho, ← Bc3.unsoa_none m.endian true false hd] <;>
      have ha := agree_startU (unsoa_length (inp := data) (n := n) (B := 16)
        (by rw [Bc3.widths_sum]; omega) (Bc3.unFields_length (col := id) (fun _ h => h) true false)) ho <;>
      apply ok_endU (n := n) (B := 16) <;> simp only [q16]
    · simpa using Bc3.untransformAlphaGeneric_ok e (k := 0) hd rfl ha (by omega)
    · exact Bc3.untransformAlphaSse2_ok hd rfl ha

/-- **C71** (BC3). Any exported untransform kernel undoes any exported transform kernel of the same
layout, even between machines of different byte order. -/
theorem C71_bc3_roundtrip (x : Nat → Byte) (e e' : Endian) (data out out' : Buf)
    (h8 : data.length % 16 = 0) (ho : data.length ≤ out.length) (ho' : data.length ≤ out'.length) :
    (∀ t ∈ Bc3.benchTransforms, ∀ u ∈ Bc3.benchUntransforms x,
      (t.2 e data out data.length).bind (fun r => u.2 e' (r.take data.length) out' data.length) =
        some (data ++ out'.drop data.length)) ∧
    (∀ t ∈ Bc3.benchAlphaTransforms, ∀ u ∈ Bc3.benchAlphaUntransforms,
      (t.2 e data out data.length).bind (fun r => u.2 e' (r.take data.length) out' data.length) =
        some (data ++ out'.drop data.length)) := by
  have key : ∀ (s : Bc3.Settings) (t u : Kernel),
      t e data out data.length = Bc3.transformWithSettings (.other .little (fun _ => 0)) data out data.length s →
      (∀ d : Buf, d.length = data.length → u e' d out' d.length =
        Bc3.untransformWithSettings (.other .little (fun _ => 0)) d out' d.length s) →
      (t e data out data.length).bind (fun r => u e' (r.take data.length) out' data.length) =
        some (data ++ out'.drop data.length) := by
    intro s t u ht hu
    have hm := Bc3.transform_impl (.other .little (fun _ => 0)) s data out h8 ho
    dsimp only [Machine.endian] at hm
    have hl : (Bc3.encode .little s data).length = data.length := hm.1
    rw [ht, hm.2, Option.bind_some, List.take_left' hm.1]
    have h1 := hu (Bc3.encode .little s data) hl
    have h2 := (Bc3.untransform_impl (.other .little (fun _ => 0)) s
      (Bc3.encode .little s data) out' (by omega) (by omega)).2
    rw [hl] at h1 h2
    refine h1.trans (h2.trans ?_)
    congr 2
    exact Bc3.decode_encode .little s data h8
  constructor
  · intro t ht u hu
    exact key _ t.2 u.2 ((C71_bc3_production e _ data out h8 ho).1 t ht)
      (fun d hd => (C71_bc3_untransforms x e' _ d out' (by omega) (by omega)).1 u hu)
  · intro t ht u hu
    exact key _ t.2 u.2 ((C71_bc3_production e _ data out h8 ho).2 t ht)
      (fun d hd => (C71_bc3_untransforms x e' _ d out' (by omega) (by omega)).2 u hu)

/-- Two concrete blocks, big endian. -/
example : Bc3.benchUnU64 .big ((List.range 32).map (BitVec.ofNat 8)) (List.replicate 33 9) 32 =
    some ([0, 1, 4, 5, 6, 7, 8, 9, 16, 17, 18, 19, 24, 25, 26, 27,
      2, 3, 10, 11, 12, 13, 14, 15, 20, 21, 22, 23, 28, 29, 30, 31, 9]) := by decide

/-! ## The splitting of colour endpoints -/

/-- **C71** (endpoint splitting). Every exported kernel writes all first endpoints followed by all
second endpoints. -/
theorem C71_split : ∀ k ∈ Split.benchSplits, ∀ e : Endian, ∀ (data out : Buf) (n : Nat),
    data.length = n * 4 → data.length ≤ out.length →
    k.2 e data out data.length = some (firsts n data ++ seconds n data ++ out.drop data.length) := by
  have hl : ∀ k ∈ Split.benchSplits, ∀ e : Endian, Lays 4 Split.pairFields (k.2 e) := by
    simp only [Split.benchSplits, List.forall_mem_cons]
    refine ⟨?_, ?_, ?_, ?_, ?_, ?_, ?_, ?_, ?_, ?_, ?_, ?_, ?_, ?_, ?_, ?_, ?_, ?_, ?_, ?_, by simp⟩ <;>
      intro e <;>
      refine lays_of (ws := [2, 2]) (by omega) rfl Split.fits (fun _ _ => rfl) ?_ <;>
      intro inp n T out tail hd hT ha
    · unfold Split.portable
      rw [show n * 4 / 2 = n * 2 by omega]
      simpa using Split.portablePtrs_ok e (k := 0) hd hT ha (Nat.zero_le _)
    · exact Split.benchU64_ok e hd hT ha
    · exact Split.benchU64x2_ok e hd hT ha
    · exact Split.benchU64x4_ok e hd hT ha
    · exact Split.benchU64x8_ok e hd hT ha
    · exact Split.benchMix_ok e hd hT ha
    · exact Split.benchMix2_ok e hd hT ha
    · exact Split.benchMix4_ok e hd hT ha
    · exact Split.benchMix8_ok e hd hT ha
    · exact Split.benchSse2Shift_ok hd hT ha
    · exact Split.benchSse2Shuf_ok hd hT ha
    · exact Split.sse2_ok hd hT ha
    · exact Split.benchSse2Shuf2_ok hd hT ha
    · exact Split.benchSsse3x2_ok hd hT ha
    · exact Split.benchSsse3x4_ok hd hT ha
    · exact Split.avx2_ok hd hT ha
    · exact Split.benchAvx2Shuf_ok hd hT ha
    · exact Split.benchAvx2Shuf2_ok hd hT ha
    · exact Split.benchAvx512x2_ok hd hT ha
    · exact Split.avx512_ok hd hT ha
  intro k hk e data out n hn ho
  rw [hl k hk e data out (by omega) ho]
  have h1 := C15_split_layout (.other .little (fun _ => 0)) data out n (by omega) ho
  have h2 := Split.split_eq (.other .little (fun _ => 0)) hn (hn ▸ ho)
  rw [hn] at h1 ⊢
  exact h2.symm.trans h1

/-- Eight concrete pairs with the sign bit set, where a saturating pack without the preceding
arithmetic shift would clip. -/
example : Split.benchSse2Shift ((List.range 32).map (fun i => BitVec.ofNat 8 (i + 240)))
    (List.replicate 32 0) 32 =
    some ([240, 241, 244, 245, 248, 249, 252, 253, 0, 1, 4, 5, 8, 9, 12, 13,
      242, 243, 246, 247, 250, 251, 254, 255, 2, 3, 6, 7, 10, 11, 14, 15]) := by decide +kernel

end Dlt.Props
