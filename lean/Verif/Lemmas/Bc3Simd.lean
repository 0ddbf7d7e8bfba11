import Verif.Lemmas.Bc3Bytes
import Verif.Lemmas.Intrinsics
/-! The vector kernels of BC3 produce the specified layout. -/

set_option linter.unusedSimpArgs false

namespace Dlt.Bc3
open Spec Simd

/-- Step over one scalar load at `base + o`. -/
macro "kldw " base:term:max o:term:max : tactic => `(tactic|
  (apply Ok.bind
   first
    | refine Ok.ld8At $base $o (by first | rfl | omega | (simp only <;> omega)) (by first | omega | (simp only <;> omega)) ?_
    | refine Ok.ld16At $base $o (by first | rfl | omega | (simp only <;> omega)) (by first | omega | (simp only <;> omega)) ?_
    | refine Ok.ld32At $base $o (by first | rfl | omega | (simp only <;> omega)) (by first | omega | (simp only <;> omega)) ?_
    | refine Ok.ld64At $base $o (by first | rfl | omega | (simp only <;> omega)) (by first | omega | (simp only <;> omega)) ?_))

/-- Step over one store whose bytes are given by the equation `l`. -/
macro "kstb " ha:ident hD:ident o:term:max len:term:max l:term:max : tactic => `(tactic|
  (apply Ok.bind
   refine Agree.stD $ha $hD (by first | omega | (simp only <;> omega)) (o := $o) (len := $len)
      (by first | omega | (simp only <;> omega))
      (by first | exact to16_length _ _ | exact to32_length _ _ | exact to64_length _ _ | exact List.length_singleton | rfl)
      (by omega) (Eq.trans (by krfl) (Eq.symm $l)) ?_
   clear $ha
   intro out $ha:ident))

/-- Step over one store of `L` bytes of which the first `g` are meant, given by the equation `l`. -/
macro "kstg " ha:ident hD:ident o:term:max g:term:max L:term:max l:term:max : tactic => `(tactic|
  (apply Ok.bind
   refine Agree.stG $ha $hD (by first | omega | (simp only <;> omega)) (o := $o) (g := $g) (L := $L)
      (by first | omega | (simp only <;> omega))
      (by first | exact to64_length _ _ | krfl)
      (by omega) (by omega)
      (by intro x hx
          simp only [DoneT, doneCols, DoneU, List.sum_cons, List.sum_nil, or_false, Nat.reduceAdd,
            Nat.zero_add, Nat.add_zero] at hx ⊢
          omega)
      (Eq.trans (by krfl) (Eq.symm $l)) ?_
   clear $ha
   intro out $ha:ident))

/-- Step over a store that a lemma has already brought to the front. -/
macro "kstp " ha:ident hD:ident o:term:max len:term:max : tactic => `(tactic|
  (refine Agree.stD $ha $hD (by first | omega | (simp only <;> omega)) (o := $o) (len := $len)
      (by first | omega | (simp only <;> omega)) (by krfl) (by omega) (by krfl) ?_
   clear $ha
   intro out $ha:ident))

/-- Step over a gather. -/
macro "kgather " : tactic => `(tactic|
  (apply Ok.bind
   refine Ok.gather32 _ (by intro o ho; simp [colourOffsets, indicesOffsets] at ho; omega) ?_))

/-- Step over the alpha index part of an AVX2 loop body. -/
macro "kbits " ha:ident hD:ident : tactic => `(tactic|
  (apply Ok.bind
   refine writeAlphaBits_ok _ (by first | omega | (simp only <;> omega)) (Eq.trans $hD (by krfl))
      (by first | omega | (simp only <;> omega))
      (by intro x hx
          simp only [DoneT, doneCols, DoneU, List.sum_cons, List.sum_nil, or_false, Nat.reduceAdd,
            Nat.zero_add, Nat.add_zero] at hx ⊢
          omega) $ha ?_
   clear $ha
   intro out $ha:ident))

/-- Bytes `i`, `i + 1` of a loaded quadword, and so on. -/
local macro "q16 " i:term:max : term => `(to16_shift64 _ _ _ _ _ _ _ _ $i (by omega))
local macro "q32 " i:term:max : term => `(to32_shift64 _ _ _ _ _ _ _ _ $i (by omega))
local macro "d16 " i:term:max : term => `(to16_shift32 _ _ _ _ $i (by omega))
local macro "d8 " i:term:max : term => `(congrArg (fun b => [b]) (shift32_byte _ _ _ _ $i (by omega)))

theorem untransformV2_ok (e : Endian) {inp : Buf} {n : Nat} {T out tail : Buf}
    (hd : inp.length = n * 16) (hT : T = unsoa n (widths false false) (unFields id false false) inp ++ tail)
    (ho : Agree (DoneU n 16 0) T out) :
    Ok (untransformV2 e inp out (n * 16)) (Agree (DoneU n 16 n) T) := by
  have hg := unFields_length (col := id) (fun _ h => h) false false
  have hl : n * (widths false false).sum ≤ inp.length := by simp [widths]; omega
  have hTl : n * 16 ≤ T.length := by
    rw [hT, List.length_append, unsoa_length hl hg]; omega
  unfold untransformV2
  have hq : n * 16 / 16 = n := by omega
  simp only [hq]
  apply Ok.bind
  apply Ok.whileM (fun j s => s.1 = j * 2 * 2 ∧ s.2.1 = n * 2 + j * 2 * 6 ∧ s.2.2.1 = n * 8 + j * 2 * 4 ∧ s.2.2.2.1 = n * 12 + j * 2 * 4 ∧ s.2.2.2.2.1 = j * 2 * 16 ∧ Agree (DoneU n 16 (j * 2)) T s.2.2.2.2.2) (n / 2) (by omega)
  · exact ⟨by simp, by simp, by simp, by simp, by simp, by simpa using ho⟩
  · rintro i ⟨ap, bp, cp, xp, op, out⟩ hi ⟨rfl, rfl, rfl, rfl, rfl, ha⟩
    refine ⟨by first | (simp; done) | (simp; omega), ?_⟩
    kblk h0 (i * 2) 2 tail hl hg hT
    simp only [widths, chunkFields, Nat.zero_add, ← Nat.mul_add, Nat.reduceAdd] at h0
    kldw (i * 2 * 2) 0
    kldw (n * 2 + i * 2 * 6) 0
    kldw (n * 2 + i * 2 * 6) 2
    kldw (n * 2 + i * 2 * 6) 6
    kldw (n * 2 + i * 2 * 6) 8
    kldw (n * 8 + i * 2 * 4) 0
    kldw (n * 8 + i * 2 * 4) 4
    kldw (n * 12 + i * 2 * 4) 0
    kldw (n * 12 + i * 2 * 4) 4
    kstb ha h0 0 2 (Eq.trans (congrArg (to16 e) (getFirst_of32 e _ _ _ _)) (to16_of16 e _ _))
    kstb ha h0 16 2 (Eq.trans (congrArg (to16 e) (getSecond_of32 e _ _ _ _)) (to16_of16 e _ _))
    kstb ha h0 2 2 (to16_of16 e _ _)
    kstb ha h0 4 4 (to32_of32 e _ _ _ _)
    kstb ha h0 18 2 (to16_of16 e _ _)
    kstb ha h0 20 4 (to32_of32 e _ _ _ _)
    kstb ha h0 8 4 (to32_of32 e _ _ _ _)
    kstb ha h0 24 4 (to32_of32 e _ _ _ _)
    kstb ha h0 12 4 (to32_of32 e _ _ _ _)
    kstb ha h0 28 4 (to32_of32 e _ _ _ _)
    kend ha
  · rintro ⟨ap, bp, cp, xp, op, out⟩ ⟨rfl, rfl, rfl, rfl, rfl, ha⟩
    refine ⟨by first | (simp; done) | (simp; omega), ?_⟩
    have := untransformPtrs_ok e hd hT ha (by omega)
    simp only
    rw [show n * 16 - (n * 16 - n * 16 % 32) = (n - n / 2 * 2) * 16 by omega]
    exact this

theorem transformAvx2Ptrs_ok (x64 : Bool) {inp : Buf} {n : Nat} {T out tail : Buf}
    (hd : inp.length = n * 16) (hT : T = columns 16 (bc3Fields id false false) inp ++ tail)
    (ho : Agree (DoneT n [2, 6, 4, 4] 0) T out) :
    Ok (transformAvx2Ptrs x64 inp 0 out 0 (n * 2) (n * 8) (n * 12) (n * 2)) (Agree (DoneT n [2, 6, 4, 4] n) T) := by
  have hf := fits00 (col := id) (fun _ h => h)
  have hTl : n * 16 ≤ T.length := by
    rw [hT, List.length_append, columns_length (by omega) hd hf]; simp
  unfold transformAvx2Ptrs
  apply Ok.bind
  apply Ok.whileM (fun j s => s.1 = j * 8 * 16 ∧ s.2.1 = j * 8 * 2 ∧ s.2.2.1 = n * 2 + j * 8 * 6 ∧ s.2.2.2.1 = n * 8 + j * 8 * 4 ∧ s.2.2.2.2.1 = n * 12 + j * 8 * 4 ∧ Agree (DoneT n [2, 6, 4, 4] (j * 8)) T s.2.2.2.2.2) (n / 8) (by omega)
  · exact ⟨by simp, by simp, by simp, by simp, by simp, by simpa using ho⟩
  · rintro i ⟨ip, ap, bp, cp, xp, out⟩ hi ⟨rfl, rfl, rfl, rfl, rfl, ha⟩
    refine ⟨by first | (simp; done) | (simp; omega), ?_⟩
    ksec h0 0 (i * 8) 8 hd tail hf hT
    ksec h1 1 (i * 8) 8 hd tail hf hT
    ksec h2 2 (i * 8) 8 hd tail hf hT
    ksec h3 3 (i * 8) 8 hd tail hf hT
    kgather
    kgather
    apply Ok.bind
    refine writeAlphaEndpointsU64_ok (by omega) (by omega) (by omega) (by omega) ?_
    kstp ha h0 0 8
    apply Ok.bind
    refine writeAlphaEndpointsU64_ok (by omega) (by omega) (by omega) (by omega) ?_
    kstp ha h0 8 8
    kbits ha h1
    kstv ha h2 0 32
    kstv ha h3 0 32
    kend ha
  · rintro ⟨ip, ap, bp, cp, xp, out⟩ ⟨rfl, rfl, rfl, rfl, rfl, ha⟩
    refine ⟨by first | (simp; done) | (simp; omega), ?_⟩
    have := transformPtrs_ok .little hd hT ha (by omega)
    simp only
    exact this

theorem transformAlphaAvx2_ok (x64 : Bool) {inp : Buf} {n : Nat} {T out tail : Buf}
    (hd : inp.length = n * 16) (hT : T = columns 16 (bc3Fields id true false) inp ++ tail)
    (ho : Agree (DoneT n [1, 1, 6, 4, 4] 0) T out) :
    Ok (transformAlphaAvx2 x64 inp 0 out 0 n (n * 2) (n * 8) (n * 12) n) (Agree (DoneT n [1, 1, 6, 4, 4] n) T) := by
  have hf := fits10 (col := id) (fun _ h => h)
  have hTl : n * 16 ≤ T.length := by
    rw [hT, List.length_append, columns_length (by omega) hd hf]; simp
  unfold transformAlphaAvx2
  apply Ok.bind
  apply Ok.whileM (fun j s => s.1 = j * 8 * 16 ∧ s.2.1 = j * 8 ∧ s.2.2.1 = n + j * 8 ∧ s.2.2.2.1 = n * 2 + j * 8 * 6 ∧ s.2.2.2.2.1 = n * 8 + j * 8 * 4 ∧ s.2.2.2.2.2.1 = n * 12 + j * 8 * 4 ∧ Agree (DoneT n [1, 1, 6, 4, 4] (j * 8)) T s.2.2.2.2.2.2) (n / 8) (by omega)
  · exact ⟨by simp, by simp, by simp, by simp, by simp, by simp, by simpa using ho⟩
  · rintro i ⟨ip, a0p, a1p, bp, cp, xp, out⟩ hi ⟨rfl, rfl, rfl, rfl, rfl, rfl, ha⟩
    refine ⟨by first | (simp; done) | (simp; omega), ?_⟩
    ksec h0 0 (i * 8) 8 hd tail hf hT
    ksec h1 1 (i * 8) 8 hd tail hf hT
    ksec h2 2 (i * 8) 8 hd tail hf hT
    ksec h3 3 (i * 8) 8 hd tail hf hT
    ksec h4 4 (i * 8) 8 hd tail hf hT
    kgather
    kgather
    apply Ok.bind
    refine writeAlphaBytesU64_ok (by omega) (by omega) (by omega) (by omega) (by omega) (by omega) (by omega) (by omega) ?_
    kstp ha h0 0 8
    apply Ok.bind
    refine writeAlphaBytesU64_ok (by omega) (by omega) (by omega) (by omega) (by omega) (by omega) (by omega) (by omega) ?_
    kstp ha h1 0 8
    kbits ha h2
    kstv ha h3 0 32
    kstv ha h4 0 32
    kend ha
  · rintro ⟨ip, a0p, a1p, bp, cp, xp, out⟩ ⟨rfl, rfl, rfl, rfl, rfl, rfl, ha⟩
    refine ⟨by first | (simp; done) | (simp; omega), ?_⟩
    have := transformAlphaGeneric_ok .little hd hT ha (by omega)
    simp only
    rw [show (n * 16 - (n * 16 - n * 16 % 128)) / 16 = n - n / 8 * 8 by omega]
    exact this

theorem transformRecorrAvx2_ok (x64 : Bool) (v : Variant) {inp : Buf} {n : Nat} {T out tail : Buf}
    (hv : v ≠ .none) (hd : inp.length = n * 16) (hT : T = columns 16 (bc3Fields (encCol .little v) false false) inp ++ tail)
    (ho : Agree (DoneT n [2, 6, 4, 4] 0) T out) :
    Ok (transformRecorrAvx2 x64 inp 0 out 0 (n * 2) (n * 8) (n * 12) n v) (Agree (DoneT n [2, 6, 4, 4] n) T) := by
  have hf := fits00 (col := (encCol .little v)) (fun _ _ => encCol_length _ _ _)
  have hTl : n * 16 ≤ T.length := by
    rw [hT, List.length_append, columns_length (by omega) hd hf]; simp
  unfold transformRecorrAvx2
  rw [if_neg hv]
  simp only [decorrAvx2_eq]
  apply Ok.bind
  apply Ok.whileM (fun j s => s.1 = j * 8 * 16 ∧ s.2.1 = j * 8 * 2 ∧ s.2.2.1 = n * 2 + j * 8 * 6 ∧ s.2.2.2.1 = n * 8 + j * 8 * 4 ∧ s.2.2.2.2.1 = n * 12 + j * 8 * 4 ∧ Agree (DoneT n [2, 6, 4, 4] (j * 8)) T s.2.2.2.2.2) (n / 8) (by omega)
  · exact ⟨by simp, by simp, by simp, by simp, by simp, by simpa using ho⟩
  · rintro i ⟨ip, ap, bp, cp, xp, out⟩ hi ⟨rfl, rfl, rfl, rfl, rfl, ha⟩
    refine ⟨by first | (simp; done) | (simp; omega), ?_⟩
    ksec h0 0 (i * 8) 8 hd tail hf hT
    ksec h1 1 (i * 8) 8 hd tail hf hT
    ksec h2 2 (i * 8) 8 hd tail hf hT
    ksec h3 3 (i * 8) 8 hd tail hf hT
    kgather
    kgather
    apply Ok.bind
    refine writeAlphaEndpointsU64_ok (by omega) (by omega) (by omega) (by omega) ?_
    kstp ha h0 0 8
    apply Ok.bind
    refine writeAlphaEndpointsU64_ok (by omega) (by omega) (by omega) (by omega) ?_
    kstp ha h0 8 8
    kbits ha h1
    kstv ha h2 0 32
    kstv ha h3 0 32
    kend ha
  · rintro ⟨ip, ap, bp, cp, xp, out⟩ ⟨rfl, rfl, rfl, rfl, rfl, ha⟩
    refine ⟨by first | (simp; done) | (simp; omega), ?_⟩
    have := transformRecorrGeneric_ok .little v hv hd hT ha (by omega)
    simp only
    rw [show n % 8 = n - n / 8 * 8 by omega]
    exact this

theorem transformVbmiPtrs_ok {inp : Buf} {n : Nat} {T out tail : Buf}
    (hd : inp.length = n * 16) (hT : T = columns 16 (bc3Fields id false false) inp ++ tail)
    (ho : Agree (DoneT n [2, 6, 4, 4] 0) T out) :
    Ok (transformVbmiPtrs inp 0 out 0 (n * 2) (n * 8) (n * 12) (n * 16)) (Agree (DoneT n [2, 6, 4, 4] n) T) := by
  have hf := fits00 (col := id) (fun _ h => h)
  have hTl : n * 16 ≤ T.length := by
    rw [hT, List.length_append, columns_length (by omega) hd hf]; simp
  unfold transformVbmiPtrs
  apply Ok.bind
  apply Ok.whileM (fun j s => s.1 = j * 8 * 16 ∧ s.2.1 = j * 8 * 2 ∧ s.2.2.1 = n * 2 + j * 8 * 6 ∧ s.2.2.2.1 = n * 8 + j * 8 * 4 ∧ s.2.2.2.2.1 = n * 12 + j * 8 * 4 ∧ Agree (DoneT n [2, 6, 4, 4] (j * 8)) T s.2.2.2.2.2) (n / 8 - 1) (by omega)
  · exact ⟨by simp, by simp, by simp, by simp, by simp, by simpa using ho⟩
  · rintro i ⟨ip, ap, bp, cp, xp, out⟩ hi ⟨rfl, rfl, rfl, rfl, rfl, ha⟩
    refine ⟨by first | (simp; done) | (simp; omega), ?_⟩
    ksec h0 0 (i * 8) 8 hd tail hf hT
    ksec h1 1 (i * 8) 8 hd tail hf hT
    ksec h2 2 (i * 8) 8 hd tail hf hT
    ksec h3 3 (i * 8) 8 hd tail hf hT
    kldv (i * 8 * 16) 0
    kldv (i * 8 * 16) 64
    kstv ha h0 0 16
    kstg ha h1 0 48 64 rfl
    kstv ha h2 0 32
    kstv ha h3 0 32
    kend ha
  · rintro ⟨ip, ap, bp, cp, xp, out⟩ ⟨rfl, rfl, rfl, rfl, rfl, ha⟩
    refine ⟨by first | (simp; done) | (simp; omega), ?_⟩
    have := transformPtrs_ok .little hd hT ha (by omega)
    simp only
    rw [show 0 + n * 16 / 16 * 2 = n * 2 by omega]
    exact this

theorem transformAlphaVbmi_ok {inp : Buf} {n : Nat} {T out tail : Buf}
    (hd : inp.length = n * 16) (hT : T = columns 16 (bc3Fields id true false) inp ++ tail)
    (ho : Agree (DoneT n [1, 1, 6, 4, 4] 0) T out) :
    Ok (transformAlphaVbmi inp 0 out 0 n (n * 2) (n * 8) (n * 12) n) (Agree (DoneT n [1, 1, 6, 4, 4] n) T) := by
  have hf := fits10 (col := id) (fun _ h => h)
  have hTl : n * 16 ≤ T.length := by
    rw [hT, List.length_append, columns_length (by omega) hd hf]; simp
  unfold transformAlphaVbmi
  apply Ok.bind
  apply Ok.whileM (fun j s => s.1 = j * 8 * 16 ∧ s.2.1 = j * 8 ∧ s.2.2.1 = n + j * 8 ∧ s.2.2.2.1 = n * 2 + j * 8 * 6 ∧ s.2.2.2.2.1 = n * 8 + j * 8 * 4 ∧ s.2.2.2.2.2.1 = n * 12 + j * 8 * 4 ∧ Agree (DoneT n [1, 1, 6, 4, 4] (j * 8)) T s.2.2.2.2.2.2) (n / 8 - 1) (by omega)
  · exact ⟨by simp, by simp, by simp, by simp, by simp, by simp, by simpa using ho⟩
  · rintro i ⟨ip, a0p, a1p, bp, cp, xp, out⟩ hi ⟨rfl, rfl, rfl, rfl, rfl, rfl, ha⟩
    refine ⟨by first | (simp; done) | (simp; omega), ?_⟩
    ksec h0 0 (i * 8) 8 hd tail hf hT
    ksec h1 1 (i * 8) 8 hd tail hf hT
    ksec h2 2 (i * 8) 8 hd tail hf hT
    ksec h3 3 (i * 8) 8 hd tail hf hT
    ksec h4 4 (i * 8) 8 hd tail hf hT
    kldv (i * 8 * 16) 0
    kldv (i * 8 * 16) 64
    kstv ha h0 0 8
    kstv ha h1 0 8
    kstg ha h2 0 48 64 rfl
    kstv ha h3 0 32
    kstv ha h4 0 32
    kend ha
  · rintro ⟨ip, a0p, a1p, bp, cp, xp, out⟩ ⟨rfl, rfl, rfl, rfl, rfl, rfl, ha⟩
    refine ⟨by first | (simp; done) | (simp; omega), ?_⟩
    have := transformAlphaGeneric_ok .little hd hT ha (by omega)
    simp only
    rw [show (n * 16 - (n * 16 - n * 16 % 128 - 128)) / 16 = n - (n / 8 - 1) * 8 by omega]
    exact this

theorem transformRecorrVbmi_ok (v : Variant) {inp : Buf} {n : Nat} {T out tail : Buf}
    (hv : v ≠ .none) (hd : inp.length = n * 16) (hT : T = columns 16 (bc3Fields (encCol .little v) false false) inp ++ tail)
    (ho : Agree (DoneT n [2, 6, 4, 4] 0) T out) :
    Ok (transformRecorrVbmi inp 0 out 0 (n * 2) (n * 8) (n * 12) n v) (Agree (DoneT n [2, 6, 4, 4] n) T) := by
  have hf := fits00 (col := (encCol .little v)) (fun _ _ => encCol_length _ _ _)
  have hTl : n * 16 ≤ T.length := by
    rw [hT, List.length_append, columns_length (by omega) hd hf]; simp
  unfold transformRecorrVbmi
  rw [if_neg hv]
  simp only [decorrAvx2_eq]
  apply Ok.bind
  apply Ok.whileM (fun j s => s.1 = j * 8 * 16 ∧ s.2.1 = j * 8 * 2 ∧ s.2.2.1 = n * 2 + j * 8 * 6 ∧ s.2.2.2.1 = n * 8 + j * 8 * 4 ∧ s.2.2.2.2.1 = n * 12 + j * 8 * 4 ∧ Agree (DoneT n [2, 6, 4, 4] (j * 8)) T s.2.2.2.2.2) (n / 8 - 1) (by omega)
  · exact ⟨by simp, by simp, by simp, by simp, by simp, by simpa using ho⟩
  · rintro i ⟨ip, ap, bp, cp, xp, out⟩ hi ⟨rfl, rfl, rfl, rfl, rfl, ha⟩
    refine ⟨by first | (simp; done) | (simp; omega), ?_⟩
    ksec h0 0 (i * 8) 8 hd tail hf hT
    ksec h1 1 (i * 8) 8 hd tail hf hT
    ksec h2 2 (i * 8) 8 hd tail hf hT
    ksec h3 3 (i * 8) 8 hd tail hf hT
    kldv (i * 8 * 16) 0
    kldv (i * 8 * 16) 64
    kstv ha h0 0 16
    kstg ha h1 0 48 64 rfl
    kstv ha h2 0 32
    kstv ha h3 0 32
    kend ha
  · rintro ⟨ip, ap, bp, cp, xp, out⟩ ⟨rfl, rfl, rfl, rfl, rfl, ha⟩
    refine ⟨by first | (simp; done) | (simp; omega), ?_⟩
    have := transformRecorrGeneric_ok .little v hv hd hT ha (by omega)
    simp only
    rw [show n - (n / 8 * 128 - 128) / 16 = n - (n / 8 - 1) * 8 by omega]
    exact this

theorem untransformSse2x64Ptrs_ok {inp : Buf} {n : Nat} {T out tail : Buf}
    (hd : inp.length = n * 16) (hT : T = unsoa n (widths false false) (unFields id false false) inp ++ tail)
    (ho : Agree (DoneU n 16 0) T out) :
    Ok (untransformSse2x64Ptrs inp 0 (n * 2) (n * 8) (n * 12) out 0 (n * 16)) (Agree (DoneU n 16 n) T) := by
  have hg := unFields_length (col := id) (fun _ h => h) false false
  have hl : n * (widths false false).sum ≤ inp.length := by simp [widths]; omega
  have hTl : n * 16 ≤ T.length := by
    rw [hT, List.length_append, unsoa_length hl hg]; omega
  unfold untransformSse2x64Ptrs
  apply Ok.bind
  apply Ok.whileM (fun j s => s.1 = j * 4 * 2 ∧ s.2.1 = n * 2 + j * 4 * 6 ∧ s.2.2.1 = n * 8 + j * 4 * 4 ∧ s.2.2.2.1 = n * 12 + j * 4 * 4 ∧ s.2.2.2.2.1 = j * 4 * 16 ∧ Agree (DoneU n 16 (j * 4)) T s.2.2.2.2.2) (n / 4) (by omega)
  · exact ⟨by simp, by simp, by simp, by simp, by simp, by simpa using ho⟩
  · rintro i ⟨ap, bp, cp, xp, op, out⟩ hi ⟨rfl, rfl, rfl, rfl, rfl, ha⟩
    refine ⟨by first | (simp; done) | (simp; omega), ?_⟩
    kblk h0 (i * 4) 4 tail hl hg hT
    simp only [widths, chunkFields, Nat.zero_add, ← Nat.mul_add, Nat.reduceAdd] at h0
    kldw (i * 4 * 2) 0
    kldw (n * 2 + i * 4 * 6) 0
    kldw (n * 2 + i * 4 * 6) 8
    kldw (n * 2 + i * 4 * 6) 16
    kldv (n * 8 + i * 4 * 4) 0
    kldv (n * 12 + i * 4 * 4) 0
    kstb ha h0 0 2 (q16 0)
    kstb ha h0 16 2 (q16 2)
    kstb ha h0 32 2 (q16 4)
    kstb ha h0 48 2 (q16 6)
    kstb ha h0 2 2 (q16 0)
    kstb ha h0 4 4 (q32 2)
    kstb ha h0 18 2 (q16 6)
    kstb ha h0 20 4 (q32 0)
    kstb ha h0 34 4 (q32 4)
    kstb ha h0 38 2 (q16 0)
    kstg ha h0 50 6 8 (to64_shift16 _ _ _ _ _ _ _ _)
    kstv ha h0 8 8
    kstv ha h0 24 8
    kstv ha h0 40 8
    kstv ha h0 56 8
    kend ha
  · rintro ⟨ap, bp, cp, xp, op, out⟩ ⟨rfl, rfl, rfl, rfl, rfl, ha⟩
    refine ⟨by first | (simp; done) | (simp; omega), ?_⟩
    have := untransformPtrs_ok .little hd hT ha (by omega)
    simp only
    rw [show n * 16 - (n * 16 - n * 16 % 64) = (n - n / 4 * 4) * 16 by omega]
    exact this

theorem untransformSse2x32_ok {inp : Buf} {n : Nat} {T out tail : Buf}
    (hd : inp.length = n * 16) (hT : T = unsoa n (widths false false) (unFields id false false) inp ++ tail)
    (ho : Agree (DoneU n 16 0) T out) :
    Ok (untransformSse2x32 inp out (n * 16)) (Agree (DoneU n 16 n) T) := by
  have hg := unFields_length (col := id) (fun _ h => h) false false
  have hl : n * (widths false false).sum ≤ inp.length := by simp [widths]; omega
  have hTl : n * 16 ≤ T.length := by
    rw [hT, List.length_append, unsoa_length hl hg]; omega
  unfold untransformSse2x32
  have hq : n * 16 / 16 = n := by omega
  simp only [hq]
  apply Ok.bind
  apply Ok.whileM (fun j s => s.1 = j * 4 * 2 ∧ s.2.1 = n * 2 + j * 4 * 6 ∧ s.2.2.1 = n * 8 + j * 4 * 4 ∧ s.2.2.2.1 = n * 12 + j * 4 * 4 ∧ s.2.2.2.2.1 = j * 4 * 16 ∧ Agree (DoneU n 16 (j * 4)) T s.2.2.2.2.2) (n / 4) (by omega)
  · exact ⟨by simp, by simp, by simp, by simp, by simp, by simpa using ho⟩
  · rintro i ⟨ap, bp, cp, xp, op, out⟩ hi ⟨rfl, rfl, rfl, rfl, rfl, ha⟩
    refine ⟨by first | (simp; done) | (simp; omega), ?_⟩
    kblk h0 (i * 4) 4 tail hl hg hT
    simp only [widths, chunkFields, Nat.zero_add, ← Nat.mul_add, Nat.reduceAdd] at h0
    kldw (i * 4 * 2) 0
    kldw (i * 4 * 2) 4
    kldw (n * 2 + i * 4 * 6) 0
    kldw (n * 2 + i * 4 * 6) 4
    kldw (n * 2 + i * 4 * 6) 8
    kldw (n * 2 + i * 4 * 6) 12
    kldw (n * 2 + i * 4 * 6) 16
    kldw (n * 2 + i * 4 * 6) 20
    kldv (n * 8 + i * 4 * 4) 0
    kldv (n * 12 + i * 4 * 4) 0
    kstb ha h0 0 2 (d16 0)
    kstb ha h0 16 2 (d16 2)
    kstb ha h0 32 2 (d16 0)
    kstb ha h0 48 2 (d16 2)
    kstb ha h0 2 4 (to32_of32 .little _ _ _ _)
    kstb ha h0 6 2 (d16 0)
    kstb ha h0 18 2 (d16 2)
    kstb ha h0 20 4 (to32_of32 .little _ _ _ _)
    kstb ha h0 34 4 (to32_of32 .little _ _ _ _)
    kstb ha h0 38 2 (d16 0)
    kstb ha h0 50 2 (d16 2)
    kstb ha h0 52 4 (to32_of32 .little _ _ _ _)
    kstv ha h0 8 8
    kstv ha h0 24 8
    kstv ha h0 40 8
    kstv ha h0 56 8
    kend ha
  · rintro ⟨ap, bp, cp, xp, op, out⟩ ⟨rfl, rfl, rfl, rfl, rfl, ha⟩
    refine ⟨by first | (simp; done) | (simp; omega), ?_⟩
    have := untransformPtrs_ok .little hd hT ha (by omega)
    simp only
    rw [show n * 16 - (n * 16 - n * 16 % 64) = (n - n / 4 * 4) * 16 by omega]
    exact this

theorem untransformAlphaSse2_ok {inp : Buf} {n : Nat} {T out tail : Buf}
    (hd : inp.length = n * 16) (hT : T = unsoa n (widths true false) (unFields id true false) inp ++ tail)
    (ho : Agree (DoneU n 16 0) T out) :
    Ok (untransformAlphaSse2 inp 0 n (n * 2) (n * 8) (n * 12) out 0 n) (Agree (DoneU n 16 n) T) := by
  have hg := unFields_length (col := id) (fun _ h => h) true false
  have hl : n * (widths true false).sum ≤ inp.length := by simp [widths]; omega
  have hTl : n * 16 ≤ T.length := by
    rw [hT, List.length_append, unsoa_length hl hg]; omega
  unfold untransformAlphaSse2
  apply Ok.bind
  apply Ok.whileM (fun j s => s.1 = j * 4 ∧ s.2.1 = n + j * 4 ∧ s.2.2.1 = n * 2 + j * 4 * 6 ∧ s.2.2.2.1 = n * 8 + j * 4 * 4 ∧ s.2.2.2.2.1 = n * 12 + j * 4 * 4 ∧ s.2.2.2.2.2.1 = j * 4 * 16 ∧ Agree (DoneU n 16 (j * 4)) T s.2.2.2.2.2.2) (n / 4) (by omega)
  · exact ⟨by simp, by simp, by simp, by simp, by simp, by simp, by simpa using ho⟩
  · rintro i ⟨a0p, a1p, bp, cp, xp, op, out⟩ hi ⟨rfl, rfl, rfl, rfl, rfl, rfl, ha⟩
    refine ⟨by first | (simp; done) | (simp; omega), ?_⟩
    kblk h0 (i * 4) 4 tail hl hg hT
    simp only [widths, chunkFields, Nat.zero_add, ← Nat.mul_add, Nat.reduceAdd] at h0
    kldw (i * 4 * 1) 0
    kldw (n * 1 + i * 4 * 1) 0
    kldw (n * 2 + i * 4 * 6) 0
    kldw (n * 2 + i * 4 * 6) 8
    kldw (n * 2 + i * 4 * 6) 16
    kldv (n * 8 + i * 4 * 4) 0
    kldv (n * 12 + i * 4 * 4) 0
    kstb ha h0 0 1 (d8 0)
    kstb ha h0 1 1 (d8 0)
    kstb ha h0 16 1 (d8 1)
    kstb ha h0 17 1 (d8 1)
    kstb ha h0 32 1 (d8 2)
    kstb ha h0 33 1 (d8 2)
    kstb ha h0 48 1 (d8 3)
    kstb ha h0 49 1 (d8 3)
    kstb ha h0 2 2 (q16 0)
    kstb ha h0 4 4 (q32 2)
    kstb ha h0 18 2 (q16 6)
    kstb ha h0 20 4 (q32 0)
    kstb ha h0 34 4 (q32 4)
    kstb ha h0 38 2 (q16 0)
    kstg ha h0 50 6 8 (to64_shift16 _ _ _ _ _ _ _ _)
    kstv ha h0 8 8
    kstv ha h0 24 8
    kstv ha h0 40 8
    kstv ha h0 56 8
    kend ha
  · rintro ⟨a0p, a1p, bp, cp, xp, op, out⟩ ⟨rfl, rfl, rfl, rfl, rfl, rfl, ha⟩
    refine ⟨by first | (simp; done) | (simp; omega), ?_⟩
    have := untransformAlphaGeneric_ok .little hd hT ha (by omega)
    simp only
    rw [show n - (n - n % 4) = n - n / 4 * 4 by omega]
    exact this

theorem untransformRecorrSse2_ok (v : Variant) {inp : Buf} {n : Nat} {T out tail : Buf}
    (hv : v ≠ .none) (hd : inp.length = n * 16) (hT : T = unsoa n (widths false false) (unFields (decCol .little v) false false) inp ++ tail)
    (ho : Agree (DoneU n 16 0) T out) :
    Ok (untransformRecorrSse2 inp 0 (n * 2) (n * 8) (n * 12) out 0 n v) (Agree (DoneU n 16 n) T) := by
  have hg := unFields_length (col := (decCol .little v)) (fun _ _ => decCol_length _ _ _) false false
  have hl : n * (widths false false).sum ≤ inp.length := by simp [widths]; omega
  have hTl : n * 16 ≤ T.length := by
    rw [hT, List.length_append, unsoa_length hl hg]; omega
  unfold untransformRecorrSse2
  rw [if_neg hv]
  simp only [recorrSse2_eq]
  apply Ok.bind
  apply Ok.whileM (fun j s => s.1 = j * 4 * 2 ∧ s.2.1 = n * 2 + j * 4 * 6 ∧ s.2.2.1 = n * 8 + j * 4 * 4 ∧ s.2.2.2.1 = n * 12 + j * 4 * 4 ∧ s.2.2.2.2.1 = j * 4 * 16 ∧ Agree (DoneU n 16 (j * 4)) T s.2.2.2.2.2) (n / 4) (by omega)
  · exact ⟨by simp, by simp, by simp, by simp, by simp, by simpa using ho⟩
  · rintro i ⟨ap, bp, cp, xp, op, out⟩ hi ⟨rfl, rfl, rfl, rfl, rfl, ha⟩
    refine ⟨by first | (simp; done) | (simp; omega), ?_⟩
    kblk h0 (i * 4) 4 tail hl hg hT
    simp only [widths, chunkFields, Nat.zero_add, ← Nat.mul_add, Nat.reduceAdd] at h0
    kldw (i * 4 * 2) 0
    kldw (n * 2 + i * 4 * 6) 0
    kldw (n * 2 + i * 4 * 6) 8
    kldw (n * 2 + i * 4 * 6) 16
    kldv (n * 8 + i * 4 * 4) 0
    kldv (n * 12 + i * 4 * 4) 0
    kstb ha h0 0 2 (q16 0)
    kstb ha h0 16 2 (q16 2)
    kstb ha h0 32 2 (q16 4)
    kstb ha h0 48 2 (q16 6)
    kstb ha h0 2 2 (q16 0)
    kstb ha h0 4 4 (q32 2)
    kstb ha h0 18 2 (q16 6)
    kstb ha h0 20 4 (q32 0)
    kstb ha h0 34 4 (q32 4)
    kstb ha h0 38 2 (q16 0)
    kstg ha h0 50 6 8 (to64_shift16 _ _ _ _ _ _ _ _)
    kstv ha h0 8 8
    kstv ha h0 24 8
    kstv ha h0 40 8
    kstv ha h0 56 8
    kend ha
  · rintro ⟨ap, bp, cp, xp, op, out⟩ ⟨rfl, rfl, rfl, rfl, rfl, ha⟩
    refine ⟨by first | (simp; done) | (simp; omega), ?_⟩
    have := untransformRecorrGeneric_ok .little v hv hd hT ha (by omega)
    simp only
    rw [show n - (n - n % 4) = n - n / 4 * 4 by omega]
    exact this

theorem untransformVbmi32Ptrs_ok (u : Nat → Byte) {inp : Buf} {n : Nat} {T out tail : Buf}
    (hd : inp.length = n * 16) (hT : T = unsoa n (widths false false) (unFields id false false) inp ++ tail)
    (ho : Agree (DoneU n 16 0) T out) :
    Ok (untransformVbmi32Ptrs u inp 0 (n * 2) (n * 8) (n * 12) out 0 (n * 16)) (Agree (DoneU n 16 n) T) := by
  have hg := unFields_length (col := id) (fun _ h => h) false false
  have hl : n * (widths false false).sum ≤ inp.length := by simp [widths]; omega
  have hTl : n * 16 ≤ T.length := by
    rw [hT, List.length_append, unsoa_length hl hg]; omega
  unfold untransformVbmi32Ptrs
  apply Ok.bind
  apply Ok.whileM (fun j s => s.1 = j * 4 * 2 ∧ s.2.1 = n * 2 + j * 4 * 6 ∧ s.2.2.1 = n * 8 + j * 4 * 4 ∧ s.2.2.2.1 = n * 12 + j * 4 * 4 ∧ s.2.2.2.2.1 = j * 4 * 16 ∧ Agree (DoneU n 16 (j * 4)) T s.2.2.2.2.2) (n / 4) (by omega)
  · exact ⟨by simp, by simp, by simp, by simp, by simp, by simpa using ho⟩
  · rintro i ⟨ap, bp, cp, xp, op, out⟩ hi ⟨rfl, rfl, rfl, rfl, rfl, ha⟩
    refine ⟨by first | (simp; done) | (simp; omega), ?_⟩
    kblk h0 (i * 4) 4 tail hl hg hT
    simp only [widths, chunkFields, Nat.zero_add, ← Nat.mul_add, Nat.reduceAdd] at h0
    kldv (i * 4 * 2) 0
    kldv (n * 8 + i * 4 * 4) 0
    kldv (n * 12 + i * 4 * 4) 0
    kldv (n * 2 + i * 4 * 6) 0
    kstv ha h0 0 64
    kend ha
  · rintro ⟨ap, bp, cp, xp, op, out⟩ ⟨rfl, rfl, rfl, rfl, rfl, ha⟩
    refine ⟨by first | (simp; done) | (simp; omega), ?_⟩
    have := untransformPtrs_ok .little hd hT ha (by omega)
    simp only
    rw [show n * 16 - (n * 16 - n * 16 % 64) = (n - n / 4 * 4) * 16 by omega]
    exact this

theorem untransformRecorrVbmi32_ok (u : Nat → Byte) (v : Variant) {inp : Buf} {n : Nat} {T out tail : Buf}
    (hv : v ≠ .none) (hd : inp.length = n * 16) (hT : T = unsoa n (widths false false) (unFields (decCol .little v) false false) inp ++ tail)
    (ho : Agree (DoneU n 16 0) T out) :
    Ok (untransformRecorrVbmi32 u inp 0 (n * 2) (n * 8) (n * 12) out 0 n v) (Agree (DoneU n 16 n) T) := by
  have hg := unFields_length (col := (decCol .little v)) (fun _ _ => decCol_length _ _ _) false false
  have hl : n * (widths false false).sum ≤ inp.length := by simp [widths]; omega
  have hTl : n * 16 ≤ T.length := by
    rw [hT, List.length_append, unsoa_length hl hg]; omega
  unfold untransformRecorrVbmi32
  rw [if_neg hv]
  simp only [recorrAvx512_eq]
  apply Ok.bind
  apply Ok.whileM (fun j s => s.1 = j * 4 * 2 ∧ s.2.1 = n * 2 + j * 4 * 6 ∧ s.2.2.1 = n * 8 + j * 4 * 4 ∧ s.2.2.2.1 = n * 12 + j * 4 * 4 ∧ s.2.2.2.2.1 = j * 4 * 16 ∧ Agree (DoneU n 16 (j * 4)) T s.2.2.2.2.2) (n / 4) (by omega)
  · exact ⟨by simp, by simp, by simp, by simp, by simp, by simpa using ho⟩
  · rintro i ⟨ap, bp, cp, xp, op, out⟩ hi ⟨rfl, rfl, rfl, rfl, rfl, ha⟩
    refine ⟨by first | (simp; done) | (simp; omega), ?_⟩
    kblk h0 (i * 4) 4 tail hl hg hT
    simp only [widths, chunkFields, Nat.zero_add, ← Nat.mul_add, Nat.reduceAdd] at h0
    kldv (i * 4 * 2) 0
    kldv (n * 8 + i * 4 * 4) 0
    kldv (n * 12 + i * 4 * 4) 0
    kldv (n * 2 + i * 4 * 6) 0
    kstv ha h0 0 64
    kend ha
  · rintro ⟨ap, bp, cp, xp, op, out⟩ ⟨rfl, rfl, rfl, rfl, rfl, ha⟩
    refine ⟨by first | (simp; done) | (simp; omega), ?_⟩
    have := untransformRecorrGeneric_ok .little v hv hd hT ha (by omega)
    simp only
    exact this

theorem untransformVbmi64Ptrs_ok {inp : Buf} {n : Nat} {T out tail : Buf}
    (hd : inp.length = n * 16) (hT : T = unsoa n (widths false false) (unFields id false false) inp ++ tail)
    (ho : Agree (DoneU n 16 0) T out) :
    Ok (untransformVbmi64Ptrs inp 0 (n * 2) (n * 8) (n * 12) out 0 (n * 16)) (Agree (DoneU n 16 n) T) := by
  have hg := unFields_length (col := id) (fun _ h => h) false false
  have hl : n * (widths false false).sum ≤ inp.length := by simp [widths]; omega
  have hTl : n * 16 ≤ T.length := by
    rw [hT, List.length_append, unsoa_length hl hg]; omega
  unfold untransformVbmi64Ptrs
  apply Ok.bind
  apply Ok.whileM (fun j s => s.1 = j * 32 * 2 ∧ s.2.1 = n * 2 + j * 32 * 6 ∧ s.2.2.1 = n * 8 + j * 32 * 4 ∧ s.2.2.2.1 = n * 12 + j * 32 * 4 ∧ s.2.2.2.2.1 = j * 32 * 16 ∧ Agree (DoneU n 16 (j * 32)) T s.2.2.2.2.2) (n / 32) (by omega)
  · exact ⟨by simp, by simp, by simp, by simp, by simp, by simpa using ho⟩
  · rintro i ⟨ap, bp, cp, xp, op, out⟩ hi ⟨rfl, rfl, rfl, rfl, rfl, ha⟩
    refine ⟨by first | (simp; done) | (simp; omega), ?_⟩
    kblk h0 (i * 32) 32 tail hl hg hT
    simp only [widths, chunkFields, Nat.zero_add, ← Nat.mul_add, Nat.reduceAdd] at h0
    kldv (i * 32 * 2) 0
    kldv (n * 8 + i * 32 * 4) 0
    kldv (n * 8 + i * 32 * 4) 64
    kldv (n * 12 + i * 32 * 4) 0
    kldv (n * 12 + i * 32 * 4) 64
    kldv (n * 2 + i * 32 * 6) 0
    kldv (n * 2 + i * 32 * 6) 48
    kldv (n * 2 + i * 32 * 6) 96
    kldv (n * 2 + i * 32 * 6) 144
    kstv ha h0 0 64
    kstv ha h0 64 64
    kstv ha h0 128 64
    kstv ha h0 192 64
    kstv ha h0 256 64
    kstv ha h0 320 64
    kstv ha h0 384 64
    kstv ha h0 448 64
    kend ha
  · rintro ⟨ap, bp, cp, xp, op, out⟩ ⟨rfl, rfl, rfl, rfl, rfl, ha⟩
    refine ⟨by first | (simp; done) | (simp; omega), ?_⟩
    have := untransformPtrs_ok .little hd hT ha (by omega)
    simp only
    rw [show n * 16 - (n * 16 - n * 16 % 512) = (n - n / 32 * 32) * 16 by omega]
    exact this

theorem untransformRecorrVbmi64_ok (v : Variant) {inp : Buf} {n : Nat} {T out tail : Buf}
    (hv : v ≠ .none) (hd : inp.length = n * 16) (hT : T = unsoa n (widths false false) (unFields (decCol .little v) false false) inp ++ tail)
    (ho : Agree (DoneU n 16 0) T out) :
    Ok (untransformRecorrVbmi64 inp 0 (n * 2) (n * 8) (n * 12) out 0 n v) (Agree (DoneU n 16 n) T) := by
  have hg := unFields_length (col := (decCol .little v)) (fun _ _ => decCol_length _ _ _) false false
  have hl : n * (widths false false).sum ≤ inp.length := by simp [widths]; omega
  have hTl : n * 16 ≤ T.length := by
    rw [hT, List.length_append, unsoa_length hl hg]; omega
  unfold untransformRecorrVbmi64
  rw [if_neg hv]
  simp only [recorrAvx512_eq]
  apply Ok.bind
  apply Ok.whileM (fun j s => s.1 = j * 32 * 2 ∧ s.2.1 = n * 2 + j * 32 * 6 ∧ s.2.2.1 = n * 8 + j * 32 * 4 ∧ s.2.2.2.1 = n * 12 + j * 32 * 4 ∧ s.2.2.2.2.1 = j * 32 * 16 ∧ Agree (DoneU n 16 (j * 32)) T s.2.2.2.2.2) (n / 32) (by omega)
  · exact ⟨by simp, by simp, by simp, by simp, by simp, by simpa using ho⟩
  · rintro i ⟨ap, bp, cp, xp, op, out⟩ hi ⟨rfl, rfl, rfl, rfl, rfl, ha⟩
    refine ⟨by first | (simp; done) | (simp; omega), ?_⟩
    kblk h0 (i * 32) 32 tail hl hg hT
    simp only [widths, chunkFields, Nat.zero_add, ← Nat.mul_add, Nat.reduceAdd] at h0
    kldv (i * 32 * 2) 0
    kldv (n * 8 + i * 32 * 4) 0
    kldv (n * 8 + i * 32 * 4) 64
    kldv (n * 12 + i * 32 * 4) 0
    kldv (n * 12 + i * 32 * 4) 64
    kldv (n * 2 + i * 32 * 6) 0
    kldv (n * 2 + i * 32 * 6) 48
    kldv (n * 2 + i * 32 * 6) 96
    kldv (n * 2 + i * 32 * 6) 144
    kstv ha h0 0 64
    kstv ha h0 64 64
    kstv ha h0 128 64
    kstv ha h0 192 64
    kstv ha h0 256 64
    kstv ha h0 320 64
    kstv ha h0 384 64
    kstv ha h0 448 64
    kend ha
  · rintro ⟨ap, bp, cp, xp, op, out⟩ ⟨rfl, rfl, rfl, rfl, rfl, ha⟩
    refine ⟨by first | (simp; done) | (simp; omega), ?_⟩
    have := untransformRecorrGeneric_ok .little v hv hd hT ha (by omega)
    simp only
    exact this

end Dlt.Bc3
