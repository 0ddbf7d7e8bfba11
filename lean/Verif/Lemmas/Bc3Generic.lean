import Verif.Model.Bc3Generic
import Verif.Lemmas.Tactic
/-! The portable BC3 kernels produce the specified layout, from any intermediate state. -/

set_option linter.unusedSimpArgs false

namespace Dlt.Bc3
open Spec

theorem getFirst_of32 (e : Endian) (a b c d : Byte) :
    getFirst e (of32 e [a, b, c, d]) = of16 e [a, b] := by
  cases e
  · exact of32_little_lo a b c d
  · exact of32_big_hi a b c d

theorem getSecond_of32 (e : Endian) (a b c d : Byte) :
    getSecond e (of32 e [a, b, c, d]) = of16 e [c, d] := by
  cases e
  · exact of32_little_hi a b c d
  · exact of32_big_lo a b c d

theorem to32_combine (e : Endian) (x y : U16) : to32 e (combine e x y) = to16 e x ++ to16 e y := by
  cases e
  · simp only [combine, to32, to16, List.cons_append, List.nil_append]
    rw [extract_lo _ _ 0 (by omega), extract_lo _ _ 8 (by omega)]
    have h1 := extract_hi x y 0 (by omega)
    have h2 := extract_hi x y 8 (by omega)
    rw [show 16 + 0 = 16 from rfl] at h1
    rw [show 16 + 8 = 24 from rfl] at h2
    rw [h1, h2]
  · simp only [combine, to32, to16, List.cons_append, List.nil_append]
    rw [BitVec.or_comm]
    rw [extract_lo _ _ 0 (by omega), extract_lo _ _ 8 (by omega)]
    have h1 := extract_hi y x 0 (by omega)
    have h2 := extract_hi y x 8 (by omega)
    rw [show 16 + 0 = 16 from rfl] at h1
    rw [show 16 + 8 = 24 from rfl] at h2
    rw [h1, h2]

/-- The bytes of a scalar store are the expected ones. -/
macro "kbytes3 " e:ident : tactic => `(tactic|
  (try simp only [getFirst_of32, getSecond_of32, to32_combine]
   kbytes $e))

/-- Field widths of the BC3 layouts. -/
def widths : Bool → Bool → List Nat
  | false, false => [2, 6, 4, 4]
  | true, false => [1, 1, 6, 4, 4]
  | false, true => [2, 6, 2, 2, 4]
  | true, true => [1, 1, 6, 2, 2, 4]

theorem fits00 {col : Buf → Buf} (hc : ∀ bs : Buf, bs.length = 2 → (col bs).length = 2) :
    Fits 16 (bc3Fields col false false) [2, 6, 4, 4] := by
  refine ⟨fun b hb => ?_, fun b hb => ?_, fun b hb => ?_, fun b hb => ?_, trivial⟩
  · exact slice_length_of_le (by omega)
  · exact slice_length_of_le (by omega)
  · rw [List.length_append, hc _ (slice_length_of_le (by omega)),
      hc _ (slice_length_of_le (by omega))]
  · exact slice_length_of_le (by omega)

theorem fits10 {col : Buf → Buf} (hc : ∀ bs : Buf, bs.length = 2 → (col bs).length = 2) :
    Fits 16 (bc3Fields col true false) [1, 1, 6, 4, 4] := by
  refine ⟨fun b hb => ?_, fun b hb => ?_, fun b hb => ?_, fun b hb => ?_, fun b hb => ?_, trivial⟩
  · exact slice_length_of_le (by omega)
  · exact slice_length_of_le (by omega)
  · exact slice_length_of_le (by omega)
  · rw [List.length_append, hc _ (slice_length_of_le (by omega)),
      hc _ (slice_length_of_le (by omega))]
  · exact slice_length_of_le (by omega)

theorem fits01 {col : Buf → Buf} (hc : ∀ bs : Buf, bs.length = 2 → (col bs).length = 2) :
    Fits 16 (bc3Fields col false true) [2, 6, 2, 2, 4] := by
  refine ⟨fun b hb => ?_, fun b hb => ?_, fun b hb => ?_, fun b hb => ?_, fun b hb => ?_, trivial⟩
  · exact slice_length_of_le (by omega)
  · exact slice_length_of_le (by omega)
  · exact hc _ (slice_length_of_le (by omega))
  · exact hc _ (slice_length_of_le (by omega))
  · exact slice_length_of_le (by omega)

theorem fits11 {col : Buf → Buf} (hc : ∀ bs : Buf, bs.length = 2 → (col bs).length = 2) :
    Fits 16 (bc3Fields col true true) [1, 1, 6, 2, 2, 4] := by
  refine ⟨fun b hb => ?_, fun b hb => ?_, fun b hb => ?_, fun b hb => ?_, fun b hb => ?_, fun b hb => ?_, trivial⟩
  · exact slice_length_of_le (by omega)
  · exact slice_length_of_le (by omega)
  · exact slice_length_of_le (by omega)
  · exact hc _ (slice_length_of_le (by omega))
  · exact hc _ (slice_length_of_le (by omega))
  · exact slice_length_of_le (by omega)

/-- Inverse of `bc3Fields` on one block. -/
def unFields (col : Buf → Buf) : Bool → Bool → List Buf → Buf
  | false, false, [a, b, c, x] => a ++ (b ++ (col (slice c 0 2) ++ col (slice c 2 2) ++ x))
  | true, false, [a0, a1, b, c, x] => a0 ++ (a1 ++ (b ++ (col (slice c 0 2) ++ col (slice c 2 2) ++ x)))
  | false, true, [a, b, c0, c1, x] => a ++ (b ++ (col c0 ++ col c1 ++ x))
  | true, true, [a0, a1, b, c0, c1, x] => a0 ++ (a1 ++ (b ++ (col c0 ++ col c1 ++ x)))
  | _, _, _ => []

theorem unFields_length {col : Buf → Buf} (hc : ∀ bs : Buf, bs.length = 2 → (col bs).length = 2)
    (sa sc : Bool) (l : List Buf) (h : Shape l (widths sa sc)) : (unFields col sa sc l).length = 16 := by
  cases sa <;> cases sc
  · match l, h with
    | [a, b, c, x], h =>
      simp only [widths, Shape] at h
      simp only [unFields, List.length_append]
      rw [hc _ (slice_length_of_le (by omega)), hc _ (slice_length_of_le (by omega))]; omega
  · match l, h with
    | [a, b, c0, c1, x], h =>
      simp only [widths, Shape] at h
      simp only [unFields, List.length_append]
      rw [hc _ h.2.2.1, hc _ h.2.2.2.1]; omega
  · match l, h with
    | [a0, a1, b, c, x], h =>
      simp only [widths, Shape] at h
      simp only [unFields, List.length_append]
      rw [hc _ (slice_length_of_le (by omega)), hc _ (slice_length_of_le (by omega))]; omega
  · match l, h with
    | [a0, a1, b, c0, c1, x], h =>
      simp only [widths, Shape] at h
      simp only [unFields, List.length_append]
      rw [hc _ h.2.2.2.1, hc _ h.2.2.2.2.1]; omega

theorem transformPtrs_ok (e : Endian) {inp : Buf} {n k : Nat} {T out tail : Buf}
    (hd : inp.length = n * 16) (hT : T = columns 16 (bc3Fields id false false) inp ++ tail)
    (ho : Agree (DoneT n [2, 6, 4, 4] k) T out) (hk : k ≤ n) :
    Ok (transformPtrs e inp (k * 16) out (k * 2) (n * 2 + k * 6) (n * 8 + k * 4) (n * 12 + k * 4) (n * 2)) (Agree (DoneT n [2, 6, 4, 4] n) T) := by
  have hf := fits00 (col := id) (fun _ h => h)
  have hTl : n * 16 ≤ T.length := by
    rw [hT, List.length_append, columns_length (by omega) hd hf]; simp
  unfold transformPtrs
  apply Ok.bind
  apply Ok.whileM (fun i s => s.1 = (k + i) * 16 ∧ s.2.1 = (k + i) * 2 ∧ s.2.2.1 = n * 2 + (k + i) * 6 ∧ s.2.2.2.1 = n * 8 + (k + i) * 4 ∧ s.2.2.2.2.1 = n * 12 + (k + i) * 4 ∧ Agree (DoneT n [2, 6, 4, 4] (k + i)) T s.2.2.2.2.2) (n - k) (by omega)
  · exact ⟨by simp, by simp, by simp, by simp, by simp, ho⟩
  · rintro i ⟨ip, ap, bp, cp, xp, out⟩ hi ⟨rfl, rfl, rfl, rfl, rfl, ha⟩
    refine ⟨by first | (simp; done) | (simp; omega), ?_⟩
    ksec h0 0 (k + i) 1 hd tail hf hT
    ksec h1 1 (k + i) 1 hd tail hf hT
    ksec h2 2 (k + i) 1 hd tail hf hT
    ksec h3 3 (k + i) 1 hd tail hf hT
    kld
    kld
    kld
    kld
    kld
    kst ha h0 0
    · kbytes3 e
    kst ha h1 0
    · kbytes3 e
    kst ha h1 2
    · kbytes3 e
    kst ha h2 0
    · kbytes3 e
    kst ha h3 0
    · kbytes3 e
    kend ha
  · rintro ⟨ip, ap, bp, cp, xp, out⟩ ⟨rfl, rfl, rfl, rfl, rfl, ha⟩
    refine ⟨by first | (simp; done) | (simp; omega), Ok.pure ?_⟩
    rw [show k + (n - k) = n by omega] at ha
    exact ha

theorem untransformPtrs_ok (e : Endian) {inp : Buf} {n k : Nat} {T out tail : Buf}
    (hd : inp.length = n * 16) (hT : T = unsoa n (widths false false) (unFields id false false) inp ++ tail)
    (ho : Agree (DoneU n 16 k) T out) (hk : k ≤ n) :
    Ok (untransformPtrs e inp (k * 2) (n * 2 + k * 6) (n * 8 + k * 4) (n * 12 + k * 4) out (k * 16) ((n - k) * 16)) (Agree (DoneU n 16 n) T) := by
  have hg := unFields_length (col := id) (fun _ h => h) false false
  have hl : n * ((widths false false)).sum ≤ inp.length := by simp [widths]; omega
  have hTl : n * 16 ≤ T.length := by
    rw [hT, List.length_append, unsoa_length hl hg]; omega
  unfold untransformPtrs
  apply Ok.bind
  apply Ok.whileM (fun i s => s.1 = (k + i) * 2 ∧ s.2.1 = n * 2 + (k + i) * 6 ∧ s.2.2.1 = n * 8 + (k + i) * 4 ∧ s.2.2.2.1 = n * 12 + (k + i) * 4 ∧ s.2.2.2.2.1 = (k + i) * 16 ∧ Agree (DoneU n 16 (k + i)) T s.2.2.2.2.2) (n - k) (by omega)
  · exact ⟨by simp, by simp, by simp, by simp, by simp, ho⟩
  · rintro i ⟨ap, bp, cp, xp, op, out⟩ hi ⟨rfl, rfl, rfl, rfl, rfl, ha⟩
    refine ⟨by first | (simp; done) | (simp; omega), ?_⟩
    kblk h0 (k + i) 1 tail hl hg hT
    simp only [widths, chunkFields, Nat.zero_add, ← Nat.mul_add, Nat.reduceAdd] at h0
    kld
    kld
    kld
    kld
    kld
    kst ha h0 0
    · kbytes3 e
    kst ha h0 2
    · kbytes3 e
    kst ha h0 4
    · kbytes3 e
    kst ha h0 8
    · kbytes3 e
    kst ha h0 12
    · kbytes3 e
    kend ha
  · rintro ⟨ap, bp, cp, xp, op, out⟩ ⟨rfl, rfl, rfl, rfl, rfl, ha⟩
    refine ⟨by first | (simp; done) | (simp; omega), Ok.pure ?_⟩
    rw [show k + (n - k) = n by omega] at ha
    exact ha

theorem transformRecorrGeneric_ok (e : Endian) (v : Variant) {inp : Buf} {n k : Nat} {T out tail : Buf}
    (hv : v ≠ .none) (hd : inp.length = n * 16) (hT : T = columns 16 (bc3Fields (encCol e v) false false) inp ++ tail)
    (ho : Agree (DoneT n [2, 6, 4, 4] k) T out) (hk : k ≤ n) :
    Ok (transformRecorrGeneric e inp (k * 16) out (k * 2) (n * 2 + k * 6) (n * 8 + k * 4) (n * 12 + k * 4) (n - k) v) (Agree (DoneT n [2, 6, 4, 4] n) T) := by
  have hf := fits00 (col := (encCol e v)) (fun _ _ => encCol_length _ _ _)
  have hTl : n * 16 ≤ T.length := by
    rw [hT, List.length_append, columns_length (by omega) hd hf]; simp
  unfold transformRecorrGeneric
  rw [if_neg hv]
  apply Ok.bind
  apply Ok.whileM (fun i s => s.1 = (k + i) * 16 ∧ s.2.1 = (k + i) * 2 ∧ s.2.2.1 = n * 2 + (k + i) * 6 ∧ s.2.2.2.1 = n * 8 + (k + i) * 4 ∧ s.2.2.2.2.1 = n * 12 + (k + i) * 4 ∧ Agree (DoneT n [2, 6, 4, 4] (k + i)) T s.2.2.2.2.2) (n - k) (by omega)
  · exact ⟨by simp, by simp, by simp, by simp, by simp, ho⟩
  · rintro i ⟨ip, ap, bp, cp, xp, out⟩ hi ⟨rfl, rfl, rfl, rfl, rfl, ha⟩
    refine ⟨by first | (simp; done) | (simp; omega), ?_⟩
    ksec h0 0 (k + i) 1 hd tail hf hT
    ksec h1 1 (k + i) 1 hd tail hf hT
    ksec h2 2 (k + i) 1 hd tail hf hT
    ksec h3 3 (k + i) 1 hd tail hf hT
    kld
    kld
    kld
    kld
    kld
    kst ha h0 0
    · kbytes3 e
    kst ha h1 0
    · kbytes3 e
    kst ha h1 2
    · kbytes3 e
    kst ha h2 0
    · kbytes3 e
    kst ha h3 0
    · kbytes3 e
    kend ha
  · rintro ⟨ip, ap, bp, cp, xp, out⟩ ⟨rfl, rfl, rfl, rfl, rfl, ha⟩
    refine ⟨by first | (simp; done) | (simp; omega), Ok.pure ?_⟩
    rw [show k + (n - k) = n by omega] at ha
    exact ha

theorem untransformRecorrGeneric_ok (e : Endian) (v : Variant) {inp : Buf} {n k : Nat} {T out tail : Buf}
    (hv : v ≠ .none) (hd : inp.length = n * 16) (hT : T = unsoa n (widths false false) (unFields (decCol e v) false false) inp ++ tail)
    (ho : Agree (DoneU n 16 k) T out) (hk : k ≤ n) :
    Ok (untransformRecorrGeneric e inp (k * 2) (n * 2 + k * 6) (n * 8 + k * 4) (n * 12 + k * 4) out (k * 16) (n - k) v) (Agree (DoneU n 16 n) T) := by
  have hg := unFields_length (col := (decCol e v)) (fun _ _ => decCol_length _ _ _) false false
  have hl : n * ((widths false false)).sum ≤ inp.length := by simp [widths]; omega
  have hTl : n * 16 ≤ T.length := by
    rw [hT, List.length_append, unsoa_length hl hg]; omega
  unfold untransformRecorrGeneric
  rw [if_neg hv]
  apply Ok.bind
  apply Ok.whileM (fun i s => s.1 = (k + i) * 2 ∧ s.2.1 = n * 2 + (k + i) * 6 ∧ s.2.2.1 = n * 8 + (k + i) * 4 ∧ s.2.2.2.1 = n * 12 + (k + i) * 4 ∧ s.2.2.2.2.1 = (k + i) * 16 ∧ Agree (DoneU n 16 (k + i)) T s.2.2.2.2.2) (n - k) (by omega)
  · exact ⟨by simp, by simp, by simp, by simp, by simp, ho⟩
  · rintro i ⟨ap, bp, cp, xp, op, out⟩ hi ⟨rfl, rfl, rfl, rfl, rfl, ha⟩
    refine ⟨by first | (simp; done) | (simp; omega), ?_⟩
    kblk h0 (k + i) 1 tail hl hg hT
    simp only [widths, chunkFields, Nat.zero_add, ← Nat.mul_add, Nat.reduceAdd] at h0
    kld
    kld
    kld
    kld
    kld
    kst ha h0 0
    · kbytes3 e
    kst ha h0 2
    · kbytes3 e
    kst ha h0 4
    · kbytes3 e
    kst ha h0 8
    · kbytes3 e
    kst ha h0 12
    · kbytes3 e
    kend ha
  · rintro ⟨ap, bp, cp, xp, op, out⟩ ⟨rfl, rfl, rfl, rfl, rfl, ha⟩
    refine ⟨by first | (simp; done) | (simp; omega), Ok.pure ?_⟩
    rw [show k + (n - k) = n by omega] at ha
    exact ha

theorem transformAlphaGeneric_ok (e : Endian) {inp : Buf} {n k : Nat} {T out tail : Buf}
    (hd : inp.length = n * 16) (hT : T = columns 16 (bc3Fields id true false) inp ++ tail)
    (ho : Agree (DoneT n [1, 1, 6, 4, 4] k) T out) (hk : k ≤ n) :
    Ok (transformAlphaGeneric e inp (k * 16) out k (n + k) (n * 2 + k * 6) (n * 8 + k * 4) (n * 12 + k * 4) (n - k)) (Agree (DoneT n [1, 1, 6, 4, 4] n) T) := by
  have hf := fits10 (col := id) (fun _ h => h)
  have hTl : n * 16 ≤ T.length := by
    rw [hT, List.length_append, columns_length (by omega) hd hf]; simp
  unfold transformAlphaGeneric
  apply Ok.bind
  apply Ok.whileM (fun i s => s.1 = (k + i) * 16 ∧ s.2.1 = (k + i) * 1 ∧ s.2.2.1 = n * 1 + (k + i) * 1 ∧ s.2.2.2.1 = n * 2 + (k + i) * 6 ∧ s.2.2.2.2.1 = n * 8 + (k + i) * 4 ∧ s.2.2.2.2.2.1 = n * 12 + (k + i) * 4 ∧ Agree (DoneT n [1, 1, 6, 4, 4] (k + i)) T s.2.2.2.2.2.2) (n - k) (by omega)
  · exact ⟨by simp, by simp, by simp, by simp, by simp, by simp, ho⟩
  · rintro i ⟨ip, a0p, a1p, bp, cp, xp, out⟩ hi ⟨rfl, rfl, rfl, rfl, rfl, rfl, ha⟩
    refine ⟨by first | (simp; done) | (simp; omega), ?_⟩
    ksec h0 0 (k + i) 1 hd tail hf hT
    ksec h1 1 (k + i) 1 hd tail hf hT
    ksec h2 2 (k + i) 1 hd tail hf hT
    ksec h3 3 (k + i) 1 hd tail hf hT
    ksec h4 4 (k + i) 1 hd tail hf hT
    kld
    kld
    kld
    kld
    kld
    kld
    kst ha h0 0
    · kbytes3 e
    kst ha h1 0
    · kbytes3 e
    kst ha h2 0
    · kbytes3 e
    kst ha h2 2
    · kbytes3 e
    kst ha h3 0
    · kbytes3 e
    kst ha h4 0
    · kbytes3 e
    kend ha
  · rintro ⟨ip, a0p, a1p, bp, cp, xp, out⟩ ⟨rfl, rfl, rfl, rfl, rfl, rfl, ha⟩
    refine ⟨by first | (simp; done) | (simp; omega), Ok.pure ?_⟩
    rw [show k + (n - k) = n by omega] at ha
    exact ha

theorem untransformAlphaGeneric_ok (e : Endian) {inp : Buf} {n k : Nat} {T out tail : Buf}
    (hd : inp.length = n * 16) (hT : T = unsoa n (widths true false) (unFields id true false) inp ++ tail)
    (ho : Agree (DoneU n 16 k) T out) (hk : k ≤ n) :
    Ok (untransformAlphaGeneric e inp k (n + k) (n * 2 + k * 6) (n * 8 + k * 4) (n * 12 + k * 4) out (k * 16) (n - k)) (Agree (DoneU n 16 n) T) := by
  have hg := unFields_length (col := id) (fun _ h => h) true false
  have hl : n * ((widths true false)).sum ≤ inp.length := by simp [widths]; omega
  have hTl : n * 16 ≤ T.length := by
    rw [hT, List.length_append, unsoa_length hl hg]; omega
  unfold untransformAlphaGeneric
  apply Ok.bind
  apply Ok.whileM (fun i s => s.1 = (k + i) * 1 ∧ s.2.1 = n * 1 + (k + i) * 1 ∧ s.2.2.1 = n * 2 + (k + i) * 6 ∧ s.2.2.2.1 = n * 8 + (k + i) * 4 ∧ s.2.2.2.2.1 = n * 12 + (k + i) * 4 ∧ s.2.2.2.2.2.1 = (k + i) * 16 ∧ Agree (DoneU n 16 (k + i)) T s.2.2.2.2.2.2) (n - k) (by omega)
  · exact ⟨by simp, by simp, by simp, by simp, by simp, by simp, ho⟩
  · rintro i ⟨a0p, a1p, bp, cp, xp, op, out⟩ hi ⟨rfl, rfl, rfl, rfl, rfl, rfl, ha⟩
    refine ⟨by first | (simp; done) | (simp; omega), ?_⟩
    kblk h0 (k + i) 1 tail hl hg hT
    simp only [widths, chunkFields, Nat.zero_add, ← Nat.mul_add, Nat.reduceAdd] at h0
    kld
    kld
    kld
    kld
    kld
    kld
    kst ha h0 0
    · kbytes3 e
    kst ha h0 1
    · kbytes3 e
    kst ha h0 2
    · kbytes3 e
    kst ha h0 4
    · kbytes3 e
    kst ha h0 8
    · kbytes3 e
    kst ha h0 12
    · kbytes3 e
    kend ha
  · rintro ⟨a0p, a1p, bp, cp, xp, op, out⟩ ⟨rfl, rfl, rfl, rfl, rfl, rfl, ha⟩
    refine ⟨by first | (simp; done) | (simp; omega), Ok.pure ?_⟩
    rw [show k + (n - k) = n by omega] at ha
    exact ha

theorem transformAlphaRecorrGeneric_ok (e : Endian) (v : Variant) {inp : Buf} {n k : Nat} {T out tail : Buf}
    (hv : v ≠ .none) (hd : inp.length = n * 16) (hT : T = columns 16 (bc3Fields (encCol e v) true false) inp ++ tail)
    (ho : Agree (DoneT n [1, 1, 6, 4, 4] k) T out) (hk : k ≤ n) :
    Ok (transformAlphaRecorrGeneric e inp (k * 16) out k (n + k) (n * 2 + k * 6) (n * 8 + k * 4) (n * 12 + k * 4) (n - k) v) (Agree (DoneT n [1, 1, 6, 4, 4] n) T) := by
  have hf := fits10 (col := (encCol e v)) (fun _ _ => encCol_length _ _ _)
  have hTl : n * 16 ≤ T.length := by
    rw [hT, List.length_append, columns_length (by omega) hd hf]; simp
  unfold transformAlphaRecorrGeneric
  rw [if_neg hv]
  apply Ok.bind
  apply Ok.whileM (fun i s => s.1 = (k + i) * 16 ∧ s.2.1 = (k + i) * 1 ∧ s.2.2.1 = n * 1 + (k + i) * 1 ∧ s.2.2.2.1 = n * 2 + (k + i) * 6 ∧ s.2.2.2.2.1 = n * 8 + (k + i) * 4 ∧ s.2.2.2.2.2.1 = n * 12 + (k + i) * 4 ∧ Agree (DoneT n [1, 1, 6, 4, 4] (k + i)) T s.2.2.2.2.2.2) (n - k) (by omega)
  · exact ⟨by simp, by simp, by simp, by simp, by simp, by simp, ho⟩
  · rintro i ⟨ip, a0p, a1p, bp, cp, xp, out⟩ hi ⟨rfl, rfl, rfl, rfl, rfl, rfl, ha⟩
    refine ⟨by first | (simp; done) | (simp; omega), ?_⟩
    ksec h0 0 (k + i) 1 hd tail hf hT
    ksec h1 1 (k + i) 1 hd tail hf hT
    ksec h2 2 (k + i) 1 hd tail hf hT
    ksec h3 3 (k + i) 1 hd tail hf hT
    ksec h4 4 (k + i) 1 hd tail hf hT
    kld
    kld
    kld
    kld
    kld
    kld
    kst ha h0 0
    · kbytes3 e
    kst ha h1 0
    · kbytes3 e
    kst ha h2 0
    · kbytes3 e
    kst ha h2 2
    · kbytes3 e
    kst ha h3 0
    · kbytes3 e
    kst ha h4 0
    · kbytes3 e
    kend ha
  · rintro ⟨ip, a0p, a1p, bp, cp, xp, out⟩ ⟨rfl, rfl, rfl, rfl, rfl, rfl, ha⟩
    refine ⟨by first | (simp; done) | (simp; omega), Ok.pure ?_⟩
    rw [show k + (n - k) = n by omega] at ha
    exact ha

theorem untransformAlphaRecorrGeneric_ok (e : Endian) (v : Variant) {inp : Buf} {n k : Nat} {T out tail : Buf}
    (hv : v ≠ .none) (hd : inp.length = n * 16) (hT : T = unsoa n (widths true false) (unFields (decCol e v) true false) inp ++ tail)
    (ho : Agree (DoneU n 16 k) T out) (hk : k ≤ n) :
    Ok (untransformAlphaRecorrGeneric e inp k (n + k) (n * 2 + k * 6) (n * 8 + k * 4) (n * 12 + k * 4) out (k * 16) (n - k) v) (Agree (DoneU n 16 n) T) := by
  have hg := unFields_length (col := (decCol e v)) (fun _ _ => decCol_length _ _ _) true false
  have hl : n * ((widths true false)).sum ≤ inp.length := by simp [widths]; omega
  have hTl : n * 16 ≤ T.length := by
    rw [hT, List.length_append, unsoa_length hl hg]; omega
  unfold untransformAlphaRecorrGeneric
  rw [if_neg hv]
  apply Ok.bind
  apply Ok.whileM (fun i s => s.1 = (k + i) * 1 ∧ s.2.1 = n * 1 + (k + i) * 1 ∧ s.2.2.1 = n * 2 + (k + i) * 6 ∧ s.2.2.2.1 = n * 8 + (k + i) * 4 ∧ s.2.2.2.2.1 = n * 12 + (k + i) * 4 ∧ s.2.2.2.2.2.1 = (k + i) * 16 ∧ Agree (DoneU n 16 (k + i)) T s.2.2.2.2.2.2) (n - k) (by omega)
  · exact ⟨by simp, by simp, by simp, by simp, by simp, by simp, ho⟩
  · rintro i ⟨a0p, a1p, bp, cp, xp, op, out⟩ hi ⟨rfl, rfl, rfl, rfl, rfl, rfl, ha⟩
    refine ⟨by first | (simp; done) | (simp; omega), ?_⟩
    kblk h0 (k + i) 1 tail hl hg hT
    simp only [widths, chunkFields, Nat.zero_add, ← Nat.mul_add, Nat.reduceAdd] at h0
    kld
    kld
    kld
    kld
    kld
    kld
    kst ha h0 0
    · kbytes3 e
    kst ha h0 1
    · kbytes3 e
    kst ha h0 2
    · kbytes3 e
    kst ha h0 4
    · kbytes3 e
    kst ha h0 8
    · kbytes3 e
    kst ha h0 12
    · kbytes3 e
    kend ha
  · rintro ⟨a0p, a1p, bp, cp, xp, op, out⟩ ⟨rfl, rfl, rfl, rfl, rfl, rfl, ha⟩
    refine ⟨by first | (simp; done) | (simp; omega), Ok.pure ?_⟩
    rw [show k + (n - k) = n by omega] at ha
    exact ha

theorem transformColourGeneric_ok (e : Endian) {inp : Buf} {n k : Nat} {T out tail : Buf}
    (hd : inp.length = n * 16) (hT : T = columns 16 (bc3Fields id false true) inp ++ tail)
    (ho : Agree (DoneT n [2, 6, 2, 2, 4] k) T out) (hk : k ≤ n) :
    Ok (transformColourGeneric e inp (k * 16) out (k * 2) (n * 2 + k * 6) (n * 8 + k * 2) (n * 10 + k * 2) (n * 12 + k * 4) (n - k)) (Agree (DoneT n [2, 6, 2, 2, 4] n) T) := by
  have hf := fits01 (col := id) (fun _ h => h)
  have hTl : n * 16 ≤ T.length := by
    rw [hT, List.length_append, columns_length (by omega) hd hf]; simp
  unfold transformColourGeneric
  apply Ok.bind
  apply Ok.whileM (fun i s => s.1 = (k + i) * 16 ∧ s.2.1 = (k + i) * 2 ∧ s.2.2.1 = n * 2 + (k + i) * 6 ∧ s.2.2.2.1 = n * 8 + (k + i) * 2 ∧ s.2.2.2.2.1 = n * 10 + (k + i) * 2 ∧ s.2.2.2.2.2.1 = n * 12 + (k + i) * 4 ∧ Agree (DoneT n [2, 6, 2, 2, 4] (k + i)) T s.2.2.2.2.2.2) (n - k) (by omega)
  · exact ⟨by simp, by simp, by simp, by simp, by simp, by simp, ho⟩
  · rintro i ⟨ip, ap, bp, c0p, c1p, xp, out⟩ hi ⟨rfl, rfl, rfl, rfl, rfl, rfl, ha⟩
    refine ⟨by first | (simp; done) | (simp; omega), ?_⟩
    ksec h0 0 (k + i) 1 hd tail hf hT
    ksec h1 1 (k + i) 1 hd tail hf hT
    ksec h2 2 (k + i) 1 hd tail hf hT
    ksec h3 3 (k + i) 1 hd tail hf hT
    ksec h4 4 (k + i) 1 hd tail hf hT
    kld
    kld
    kld
    kld
    kld
    kld
    kst ha h0 0
    · kbytes3 e
    kst ha h1 0
    · kbytes3 e
    kst ha h1 2
    · kbytes3 e
    kst ha h2 0
    · kbytes3 e
    kst ha h3 0
    · kbytes3 e
    kst ha h4 0
    · kbytes3 e
    kend ha
  · rintro ⟨ip, ap, bp, c0p, c1p, xp, out⟩ ⟨rfl, rfl, rfl, rfl, rfl, rfl, ha⟩
    refine ⟨by first | (simp; done) | (simp; omega), Ok.pure ?_⟩
    rw [show k + (n - k) = n by omega] at ha
    exact ha

theorem untransformColourGeneric_ok (e : Endian) {inp : Buf} {n k : Nat} {T out tail : Buf}
    (hd : inp.length = n * 16) (hT : T = unsoa n (widths false true) (unFields id false true) inp ++ tail)
    (ho : Agree (DoneU n 16 k) T out) (hk : k ≤ n) :
    Ok (untransformColourGeneric e inp (k * 2) (n * 2 + k * 6) (n * 8 + k * 2) (n * 10 + k * 2) (n * 12 + k * 4) out (k * 16) (n - k)) (Agree (DoneU n 16 n) T) := by
  have hg := unFields_length (col := id) (fun _ h => h) false true
  have hl : n * ((widths false true)).sum ≤ inp.length := by simp [widths]; omega
  have hTl : n * 16 ≤ T.length := by
    rw [hT, List.length_append, unsoa_length hl hg]; omega
  unfold untransformColourGeneric
  apply Ok.bind
  apply Ok.whileM (fun i s => s.1 = (k + i) * 2 ∧ s.2.1 = n * 2 + (k + i) * 6 ∧ s.2.2.1 = n * 8 + (k + i) * 2 ∧ s.2.2.2.1 = n * 10 + (k + i) * 2 ∧ s.2.2.2.2.1 = n * 12 + (k + i) * 4 ∧ s.2.2.2.2.2.1 = (k + i) * 16 ∧ Agree (DoneU n 16 (k + i)) T s.2.2.2.2.2.2) (n - k) (by omega)
  · exact ⟨by simp, by simp, by simp, by simp, by simp, by simp, ho⟩
  · rintro i ⟨ap, bp, c0p, c1p, xp, op, out⟩ hi ⟨rfl, rfl, rfl, rfl, rfl, rfl, ha⟩
    refine ⟨by first | (simp; done) | (simp; omega), ?_⟩
    kblk h0 (k + i) 1 tail hl hg hT
    simp only [widths, chunkFields, Nat.zero_add, ← Nat.mul_add, Nat.reduceAdd] at h0
    kld
    kld
    kld
    kld
    kld
    kld
    kst ha h0 0
    · kbytes3 e
    kst ha h0 2
    · kbytes3 e
    kst ha h0 4
    · kbytes3 e
    kst ha h0 8
    · kbytes3 e
    kst ha h0 10
    · kbytes3 e
    kst ha h0 12
    · kbytes3 e
    kend ha
  · rintro ⟨ap, bp, c0p, c1p, xp, op, out⟩ ⟨rfl, rfl, rfl, rfl, rfl, rfl, ha⟩
    refine ⟨by first | (simp; done) | (simp; omega), Ok.pure ?_⟩
    rw [show k + (n - k) = n by omega] at ha
    exact ha

theorem transformColourRecorrGeneric_ok (e : Endian) (v : Variant) {inp : Buf} {n k : Nat} {T out tail : Buf}
    (hv : v ≠ .none) (hd : inp.length = n * 16) (hT : T = columns 16 (bc3Fields (encCol e v) false true) inp ++ tail)
    (ho : Agree (DoneT n [2, 6, 2, 2, 4] k) T out) (hk : k ≤ n) :
    Ok (transformColourRecorrGeneric e inp (k * 16) out (k * 2) (n * 2 + k * 6) (n * 8 + k * 2) (n * 10 + k * 2) (n * 12 + k * 4) (n - k) v) (Agree (DoneT n [2, 6, 2, 2, 4] n) T) := by
  have hf := fits01 (col := (encCol e v)) (fun _ _ => encCol_length _ _ _)
  have hTl : n * 16 ≤ T.length := by
    rw [hT, List.length_append, columns_length (by omega) hd hf]; simp
  unfold transformColourRecorrGeneric
  rw [if_neg hv]
  apply Ok.bind
  apply Ok.whileM (fun i s => s.1 = (k + i) * 16 ∧ s.2.1 = (k + i) * 2 ∧ s.2.2.1 = n * 2 + (k + i) * 6 ∧ s.2.2.2.1 = n * 8 + (k + i) * 2 ∧ s.2.2.2.2.1 = n * 10 + (k + i) * 2 ∧ s.2.2.2.2.2.1 = n * 12 + (k + i) * 4 ∧ Agree (DoneT n [2, 6, 2, 2, 4] (k + i)) T s.2.2.2.2.2.2) (n - k) (by omega)
  · exact ⟨by simp, by simp, by simp, by simp, by simp, by simp, ho⟩
  · rintro i ⟨ip, ap, bp, c0p, c1p, xp, out⟩ hi ⟨rfl, rfl, rfl, rfl, rfl, rfl, ha⟩
    refine ⟨by first | (simp; done) | (simp; omega), ?_⟩
    ksec h0 0 (k + i) 1 hd tail hf hT
    ksec h1 1 (k + i) 1 hd tail hf hT
    ksec h2 2 (k + i) 1 hd tail hf hT
    ksec h3 3 (k + i) 1 hd tail hf hT
    ksec h4 4 (k + i) 1 hd tail hf hT
    kld
    kld
    kld
    kld
    kld
    kst ha h0 0
    · kbytes3 e
    kst ha h1 0
    · kbytes3 e
    kst ha h1 2
    · kbytes3 e
    kst ha h2 0
    · kbytes3 e
    kst ha h3 0
    · kbytes3 e
    kst ha h4 0
    · kbytes3 e
    kend ha
  · rintro ⟨ip, ap, bp, c0p, c1p, xp, out⟩ ⟨rfl, rfl, rfl, rfl, rfl, rfl, ha⟩
    refine ⟨by first | (simp; done) | (simp; omega), Ok.pure ?_⟩
    rw [show k + (n - k) = n by omega] at ha
    exact ha

theorem untransformColourRecorrGeneric_ok (e : Endian) (v : Variant) {inp : Buf} {n k : Nat} {T out tail : Buf}
    (hv : v ≠ .none) (hd : inp.length = n * 16) (hT : T = unsoa n (widths false true) (unFields (decCol e v) false true) inp ++ tail)
    (ho : Agree (DoneU n 16 k) T out) (hk : k ≤ n) :
    Ok (untransformColourRecorrGeneric e inp (k * 2) (n * 2 + k * 6) (n * 8 + k * 2) (n * 10 + k * 2) (n * 12 + k * 4) out (k * 16) (n - k) v) (Agree (DoneU n 16 n) T) := by
  have hg := unFields_length (col := (decCol e v)) (fun _ _ => decCol_length _ _ _) false true
  have hl : n * ((widths false true)).sum ≤ inp.length := by simp [widths]; omega
  have hTl : n * 16 ≤ T.length := by
    rw [hT, List.length_append, unsoa_length hl hg]; omega
  unfold untransformColourRecorrGeneric
  rw [if_neg hv]
  apply Ok.bind
  apply Ok.whileM (fun i s => s.1 = (k + i) * 2 ∧ s.2.1 = n * 2 + (k + i) * 6 ∧ s.2.2.1 = n * 8 + (k + i) * 2 ∧ s.2.2.2.1 = n * 10 + (k + i) * 2 ∧ s.2.2.2.2.1 = n * 12 + (k + i) * 4 ∧ s.2.2.2.2.2.1 = (k + i) * 16 ∧ Agree (DoneU n 16 (k + i)) T s.2.2.2.2.2.2) (n - k) (by omega)
  · exact ⟨by simp, by simp, by simp, by simp, by simp, by simp, ho⟩
  · rintro i ⟨ap, bp, c0p, c1p, xp, op, out⟩ hi ⟨rfl, rfl, rfl, rfl, rfl, rfl, ha⟩
    refine ⟨by first | (simp; done) | (simp; omega), ?_⟩
    kblk h0 (k + i) 1 tail hl hg hT
    simp only [widths, chunkFields, Nat.zero_add, ← Nat.mul_add, Nat.reduceAdd] at h0
    kld
    kld
    kld
    kld
    kld
    kld
    kst ha h0 0
    · kbytes3 e
    kst ha h0 2
    · kbytes3 e
    kst ha h0 4
    · kbytes3 e
    kst ha h0 8
    · kbytes3 e
    kst ha h0 12
    · kbytes3 e
    kend ha
  · rintro ⟨ap, bp, c0p, c1p, xp, op, out⟩ ⟨rfl, rfl, rfl, rfl, rfl, rfl, ha⟩
    refine ⟨by first | (simp; done) | (simp; omega), Ok.pure ?_⟩
    rw [show k + (n - k) = n by omega] at ha
    exact ha

theorem transformBothGeneric_ok (e : Endian) {inp : Buf} {n k : Nat} {T out tail : Buf}
    (hd : inp.length = n * 16) (hT : T = columns 16 (bc3Fields id true true) inp ++ tail)
    (ho : Agree (DoneT n [1, 1, 6, 2, 2, 4] k) T out) (hk : k ≤ n) :
    Ok (transformBothGeneric e inp (k * 16) out k (n + k) (n * 2 + k * 6) (n * 8 + k * 2) (n * 10 + k * 2) (n * 12 + k * 4) (n - k)) (Agree (DoneT n [1, 1, 6, 2, 2, 4] n) T) := by
  have hf := fits11 (col := id) (fun _ h => h)
  have hTl : n * 16 ≤ T.length := by
    rw [hT, List.length_append, columns_length (by omega) hd hf]; simp
  unfold transformBothGeneric
  apply Ok.bind
  apply Ok.whileM (fun i s => s.1 = (k + i) * 16 ∧ s.2.1 = (k + i) * 1 ∧ s.2.2.1 = n * 1 + (k + i) * 1 ∧ s.2.2.2.1 = n * 2 + (k + i) * 6 ∧ s.2.2.2.2.1 = n * 8 + (k + i) * 2 ∧ s.2.2.2.2.2.1 = n * 10 + (k + i) * 2 ∧ s.2.2.2.2.2.2.1 = n * 12 + (k + i) * 4 ∧ Agree (DoneT n [1, 1, 6, 2, 2, 4] (k + i)) T s.2.2.2.2.2.2.2) (n - k) (by omega)
  · exact ⟨by simp, by simp, by simp, by simp, by simp, by simp, by simp, ho⟩
  · rintro i ⟨ip, a0p, a1p, bp, c0p, c1p, xp, out⟩ hi ⟨rfl, rfl, rfl, rfl, rfl, rfl, rfl, ha⟩
    refine ⟨by first | (simp; done) | (simp; omega), ?_⟩
    ksec h0 0 (k + i) 1 hd tail hf hT
    ksec h1 1 (k + i) 1 hd tail hf hT
    ksec h2 2 (k + i) 1 hd tail hf hT
    ksec h3 3 (k + i) 1 hd tail hf hT
    ksec h4 4 (k + i) 1 hd tail hf hT
    ksec h5 5 (k + i) 1 hd tail hf hT
    kld
    kld
    kld
    kld
    kld
    kld
    kst ha h0 0
    · kbytes3 e
    kst ha h1 0
    · kbytes3 e
    kst ha h2 0
    · kbytes3 e
    kst ha h2 2
    · kbytes3 e
    kst ha h3 0
    · kbytes3 e
    kst ha h4 0
    · kbytes3 e
    kst ha h5 0
    · kbytes3 e
    kend ha
  · rintro ⟨ip, a0p, a1p, bp, c0p, c1p, xp, out⟩ ⟨rfl, rfl, rfl, rfl, rfl, rfl, rfl, ha⟩
    refine ⟨by first | (simp; done) | (simp; omega), Ok.pure ?_⟩
    rw [show k + (n - k) = n by omega] at ha
    exact ha

theorem untransformBothGeneric_ok (e : Endian) {inp : Buf} {n k : Nat} {T out tail : Buf}
    (hd : inp.length = n * 16) (hT : T = unsoa n (widths true true) (unFields id true true) inp ++ tail)
    (ho : Agree (DoneU n 16 k) T out) (hk : k ≤ n) :
    Ok (untransformBothGeneric e inp k (n + k) (n * 2 + k * 6) (n * 8 + k * 2) (n * 10 + k * 2) (n * 12 + k * 4) out (k * 16) (n - k)) (Agree (DoneU n 16 n) T) := by
  have hg := unFields_length (col := id) (fun _ h => h) true true
  have hl : n * ((widths true true)).sum ≤ inp.length := by simp [widths]; omega
  have hTl : n * 16 ≤ T.length := by
    rw [hT, List.length_append, unsoa_length hl hg]; omega
  unfold untransformBothGeneric
  apply Ok.bind
  apply Ok.whileM (fun i s => s.1 = (k + i) * 1 ∧ s.2.1 = n * 1 + (k + i) * 1 ∧ s.2.2.1 = n * 2 + (k + i) * 6 ∧ s.2.2.2.1 = n * 8 + (k + i) * 2 ∧ s.2.2.2.2.1 = n * 10 + (k + i) * 2 ∧ s.2.2.2.2.2.1 = n * 12 + (k + i) * 4 ∧ s.2.2.2.2.2.2.1 = (k + i) * 16 ∧ Agree (DoneU n 16 (k + i)) T s.2.2.2.2.2.2.2) (n - k) (by omega)
  · exact ⟨by simp, by simp, by simp, by simp, by simp, by simp, by simp, ho⟩
  · rintro i ⟨a0p, a1p, bp, c0p, c1p, xp, op, out⟩ hi ⟨rfl, rfl, rfl, rfl, rfl, rfl, rfl, ha⟩
    refine ⟨by first | (simp; done) | (simp; omega), ?_⟩
    kblk h0 (k + i) 1 tail hl hg hT
    simp only [widths, chunkFields, Nat.zero_add, ← Nat.mul_add, Nat.reduceAdd] at h0
    kld
    kld
    kld
    kld
    kld
    kld
    kld
    kst ha h0 0
    · kbytes3 e
    kst ha h0 1
    · kbytes3 e
    kst ha h0 2
    · kbytes3 e
    kst ha h0 4
    · kbytes3 e
    kst ha h0 8
    · kbytes3 e
    kst ha h0 12
    · kbytes3 e
    kend ha
  · rintro ⟨a0p, a1p, bp, c0p, c1p, xp, op, out⟩ ⟨rfl, rfl, rfl, rfl, rfl, rfl, rfl, ha⟩
    refine ⟨by first | (simp; done) | (simp; omega), Ok.pure ?_⟩
    rw [show k + (n - k) = n by omega] at ha
    exact ha

theorem transformBothRecorrGeneric_ok (e : Endian) (v : Variant) {inp : Buf} {n k : Nat} {T out tail : Buf}
    (hv : v ≠ .none) (hd : inp.length = n * 16) (hT : T = columns 16 (bc3Fields (encCol e v) true true) inp ++ tail)
    (ho : Agree (DoneT n [1, 1, 6, 2, 2, 4] k) T out) (hk : k ≤ n) :
    Ok (transformBothRecorrGeneric e inp (k * 16) out k (n + k) (n * 2 + k * 6) (n * 8 + k * 2) (n * 10 + k * 2) (n * 12 + k * 4) (n - k) v) (Agree (DoneT n [1, 1, 6, 2, 2, 4] n) T) := by
  have hf := fits11 (col := (encCol e v)) (fun _ _ => encCol_length _ _ _)
  have hTl : n * 16 ≤ T.length := by
    rw [hT, List.length_append, columns_length (by omega) hd hf]; simp
  unfold transformBothRecorrGeneric
  rw [if_neg hv]
  apply Ok.bind
  apply Ok.whileM (fun i s => s.1 = (k + i) * 16 ∧ s.2.1 = (k + i) * 1 ∧ s.2.2.1 = n * 1 + (k + i) * 1 ∧ s.2.2.2.1 = n * 2 + (k + i) * 6 ∧ s.2.2.2.2.1 = n * 8 + (k + i) * 2 ∧ s.2.2.2.2.2.1 = n * 10 + (k + i) * 2 ∧ s.2.2.2.2.2.2.1 = n * 12 + (k + i) * 4 ∧ Agree (DoneT n [1, 1, 6, 2, 2, 4] (k + i)) T s.2.2.2.2.2.2.2) (n - k) (by omega)
  · exact ⟨by simp, by simp, by simp, by simp, by simp, by simp, by simp, ho⟩
  · rintro i ⟨ip, a0p, a1p, bp, c0p, c1p, xp, out⟩ hi ⟨rfl, rfl, rfl, rfl, rfl, rfl, rfl, ha⟩
    refine ⟨by first | (simp; done) | (simp; omega), ?_⟩
    ksec h0 0 (k + i) 1 hd tail hf hT
    ksec h1 1 (k + i) 1 hd tail hf hT
    ksec h2 2 (k + i) 1 hd tail hf hT
    ksec h3 3 (k + i) 1 hd tail hf hT
    ksec h4 4 (k + i) 1 hd tail hf hT
    ksec h5 5 (k + i) 1 hd tail hf hT
    kld
    kld
    kld
    kld
    kld
    kld
    kst ha h0 0
    · kbytes3 e
    kst ha h1 0
    · kbytes3 e
    kst ha h2 0
    · kbytes3 e
    kst ha h2 2
    · kbytes3 e
    kst ha h3 0
    · kbytes3 e
    kst ha h4 0
    · kbytes3 e
    kst ha h5 0
    · kbytes3 e
    kend ha
  · rintro ⟨ip, a0p, a1p, bp, c0p, c1p, xp, out⟩ ⟨rfl, rfl, rfl, rfl, rfl, rfl, rfl, ha⟩
    refine ⟨by first | (simp; done) | (simp; omega), Ok.pure ?_⟩
    rw [show k + (n - k) = n by omega] at ha
    exact ha

theorem untransformBothRecorrGeneric_ok (e : Endian) (v : Variant) {inp : Buf} {n k : Nat} {T out tail : Buf}
    (hv : v ≠ .none) (hd : inp.length = n * 16) (hT : T = unsoa n (widths true true) (unFields (decCol e v) true true) inp ++ tail)
    (ho : Agree (DoneU n 16 k) T out) (hk : k ≤ n) :
    Ok (untransformBothRecorrGeneric e inp k (n + k) (n * 2 + k * 6) (n * 8 + k * 2) (n * 10 + k * 2) (n * 12 + k * 4) out (k * 16) (n - k) v) (Agree (DoneU n 16 n) T) := by
  have hg := unFields_length (col := (decCol e v)) (fun _ _ => decCol_length _ _ _) true true
  have hl : n * ((widths true true)).sum ≤ inp.length := by simp [widths]; omega
  have hTl : n * 16 ≤ T.length := by
    rw [hT, List.length_append, unsoa_length hl hg]; omega
  unfold untransformBothRecorrGeneric
  rw [if_neg hv]
  apply Ok.bind
  apply Ok.whileM (fun i s => s.1 = (k + i) * 1 ∧ s.2.1 = n * 1 + (k + i) * 1 ∧ s.2.2.1 = n * 2 + (k + i) * 6 ∧ s.2.2.2.1 = n * 8 + (k + i) * 2 ∧ s.2.2.2.2.1 = n * 10 + (k + i) * 2 ∧ s.2.2.2.2.2.1 = n * 12 + (k + i) * 4 ∧ s.2.2.2.2.2.2.1 = (k + i) * 16 ∧ Agree (DoneU n 16 (k + i)) T s.2.2.2.2.2.2.2) (n - k) (by omega)
  · exact ⟨by simp, by simp, by simp, by simp, by simp, by simp, by simp, ho⟩
  · rintro i ⟨a0p, a1p, bp, c0p, c1p, xp, op, out⟩ hi ⟨rfl, rfl, rfl, rfl, rfl, rfl, rfl, ha⟩
    refine ⟨by first | (simp; done) | (simp; omega), ?_⟩
    kblk h0 (k + i) 1 tail hl hg hT
    simp only [widths, chunkFields, Nat.zero_add, ← Nat.mul_add, Nat.reduceAdd] at h0
    kld
    kld
    kld
    kld
    kld
    kld
    kld
    kst ha h0 0
    · kbytes3 e
    kst ha h0 1
    · kbytes3 e
    kst ha h0 2
    · kbytes3 e
    kst ha h0 4
    · kbytes3 e
    kst ha h0 8
    · kbytes3 e
    kst ha h0 12
    · kbytes3 e
    kend ha
  · rintro ⟨a0p, a1p, bp, c0p, c1p, xp, op, out⟩ ⟨rfl, rfl, rfl, rfl, rfl, rfl, rfl, ha⟩
    refine ⟨by first | (simp; done) | (simp; omega), Ok.pure ?_⟩
    rw [show k + (n - k) = n by omega] at ha
    exact ha

end Dlt.Bc3
