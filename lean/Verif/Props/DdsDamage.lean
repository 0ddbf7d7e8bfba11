import Verif.Props.DdsBuilds
import Verif.Props.Locality
/-!
# C93: damage in a transformed DDS file stays where it is

The texture of a transformed file is a rearrangement of blocks (`C83`); here the file around it is added.
-/

namespace Dlt.Props

open Dlt.FileFormats Dlt.Dds Dlt.Embed Spec

variable {σ E : Type}

/-- The size of the blocks of the format named in the first four bytes. -/
def blockSizeOf (t : Buf) : Nat := if num t 0 % 16 = 0 then 8 else 16

/-- The sections of the texture, by the settings in the first four bytes. -/
def sectionsOf (t : Buf) : List Nat :=
  if num t 0 % 16 = 0 then sections1 (wordSettings (num t 0)).split else sections2 (wordSettings (num t 0)).split

/-- The bytes of the texture in a file whose header is that of `t`. -/
def textureIn (t x : Buf) : Buf := slice x (headerSize t) (reportedSize t)

theorem sectionsOf_sum (t : Buf) : (sectionsOf t).sum = blockSizeOf t := by
  unfold sectionsOf blockSizeOf
  split
  · cases (wordSettings (num t 0)).split <;> rfl
  · cases (wordSettings (num t 0)).split <;> rfl

/-- What the texture is restored to does not depend on the rest of the file; and two textures under one tag. -/
theorem dispatch_pair {m : Machine} {w : U32} {n0 : Nat} {a out u : Buf} (hn : w.toNat = n0) (ho : out.length = a.length)
    (h : dispatchUntransform m ⟨w⟩ a out = some (u, .ok ())) (b out' : Buf) (hb : b.length = a.length)
    (ho' : out'.length = a.length) :
    ∃ u' n, dispatchUntransform m ⟨w⟩ b out' = some (u', .ok ()) ∧ u.length = a.length ∧ u'.length = a.length ∧
      a.length = n * (if n0 % 16 = 0 then 8 else 16) ∧
      ∀ i, i < n → (block (if n0 % 16 = 0 then 8 else 16) u' i = block (if n0 % 16 = 0 then 8 else 16) u i ↔
        AgreeOn (if n0 % 16 = 0 then sections1 (wordSettings n0).split else sections2 (wordSettings n0).split) n i a b) := by
  subst hn
  obtain ⟨_, h2⟩ := C36_dispatch_obeys_header m ⟨w⟩ a out
  obtain ⟨h3, h4, h5, h6⟩ := h2 (by omega)
  obtain ⟨_, k2⟩ := C36_dispatch_obeys_header m ⟨w⟩ b out'
  obtain ⟨_, _, k5, k6⟩ := k2 (by omega)
  simp only [] at h3 h4 h5 h6 k5 k6
  have t1 : w.toNat % 16 < 2 := by
    by_cases ht : 2 ≤ w.toNat % 16
    · rw [h3 ht] at h; simp at h
    · omega
  have t2 : w.toNat / 16 % 4 = 0 := by
    by_cases hv : w.toNat / 16 % 4 = 0
    · exact hv
    · rw [h4 t1 hv] at h; simp at h
  by_cases ht : w.toNat % 16 = 0
  · obtain ⟨h7, h8⟩ := h5 ht t2
    by_cases ha : a.length % 8 = 0
    swap
    · rw [h7 ha] at h; simp at h
    obtain ⟨o, h9, h10⟩ := h8 ha
    rw [h, Option.some.injEq, Prod.mk.injEq] at h10
    rw [← h10.1] at h9
    obtain ⟨o', k9, k10⟩ := (k5 ht t2).2 (by omega)
    have hn : a.length = a.length / 8 * 8 := by omega
    obtain ⟨x, y, e1, e2, e3⟩ := (C83_bc1 m m rfl (wordSettings w.toNat) (a.length / 8) a b out out' hn (by omega) (by omega)
      (by omega)).2
    rw [h9] at e1
    rw [k9] at e2
    cases e1
    cases e2
    have l1 : u.length = a.length := by
      obtain ⟨hl, e⟩ := Bc1.untransform_impl m (wordSettings w.toNat) a out ha (by omega)
      simp only [] at hl e
      rw [h9, Option.some.injEq] at e
      rw [e, List.length_append, hl]; simp; omega
    have l2 : o'.length = a.length := by
      obtain ⟨hl, e⟩ := Bc1.untransform_impl m (wordSettings w.toNat) b out' (by omega) (by omega)
      simp only [] at hl e
      rw [k9, Option.some.injEq] at e
      rw [e, List.length_append, hl]; simp; omega
    refine ⟨o', a.length / 8, k10, l1, l2, by rw [if_pos ht]; exact hn, fun i hi => ?_⟩
    have := e3 i hi
    rw [List.take_of_length_le (by omega), List.take_of_length_le (by omega)] at this
    rw [if_pos ht, if_pos ht, ← this]
    exact eq_comm
  · have ht1 : w.toNat % 16 = 1 := by omega
    obtain ⟨h7, h8⟩ := h6 ht1 t2
    by_cases ha : a.length % 16 = 0
    swap
    · rw [h7 ha] at h; simp at h
    obtain ⟨o, h9, h10⟩ := h8 ha
    rw [h, Option.some.injEq, Prod.mk.injEq] at h10
    rw [← h10.1] at h9
    obtain ⟨o', k9, k10⟩ := (k6 ht1 t2).2 (by omega)
    have hn : a.length = a.length / 16 * 16 := by omega
    obtain ⟨x, y, e1, e2, e3⟩ := (C83_bc2 m m rfl (wordSettings w.toNat) (a.length / 16) a b out out' hn (by omega) (by omega)
      (by omega)).2
    rw [h9] at e1
    rw [k9] at e2
    cases e1
    cases e2
    have l1 : u.length = a.length := by
      obtain ⟨hl, e⟩ := Bc2.untransform_impl m (wordSettings w.toNat) a out ha (by omega)
      simp only [] at hl e
      rw [h9, Option.some.injEq] at e
      rw [e, List.length_append, hl]; simp; omega
    have l2 : o'.length = a.length := by
      obtain ⟨hl, e⟩ := Bc2.untransform_impl m (wordSettings w.toNat) b out' (by omega) (by omega)
      simp only [] at hl e
      rw [k9, Option.some.injEq] at e
      rw [e, List.length_append, hl]; simp; omega
    refine ⟨o', a.length / 16, k10, l1, l2, by rw [if_neg ht]; exact hn, fun i hi => ?_⟩
    have := e3 i hi
    rw [List.take_of_length_le (by omega), List.take_of_length_le (by omega)] at this
    rw [if_neg ht, if_neg ht, ← this]
    exact eq_comm

/-- **C93.** `t` could be restored to `r`; `t'` has the length and the header of `t` (with the first four bytes), and any other
bytes.  Then `t'` can be restored too.  The header and what comes after the texture are as in `r` and `t'`; a block of the
texture is that of `r` exactly if the bytes that belong to it are those of `t`. -/
theorem C93_damage (p : Platform) (hu : 2 ^ 32 - 1 ≤ p.env.usizeMax) (t t' out out' r : Buf) (ho : out.length = t.length)
    (ho' : out'.length = t.length) (hl : t'.length = t.length) (hh : t'.take (headerSize t) = t.take (headerSize t))
    (h : untransform p t out = some (r, .ok ())) :
    ∃ r' n, untransform p t' out' = some (r', .ok ()) ∧ r.length = t.length ∧ r'.length = t.length ∧
      headerSize t + reportedSize t ≤ t.length ∧ r'.take (headerSize t) = r.take (headerSize t) ∧
      r.drop (headerSize t + reportedSize t) = t.drop (headerSize t + reportedSize t) ∧
      r'.drop (headerSize t + reportedSize t) = t'.drop (headerSize t + reportedSize t) ∧
      reportedSize t = n * blockSizeOf t ∧
      ∀ i, i < n → (block (blockSizeOf t) (textureIn t r') i = block (blockSizeOf t) (textureIn t r) i ↔
        AgreeOn (sectionsOf t) n i (textureIn t t) (textureIn t t')) := by
  obtain ⟨info, hp, h1, h2, h3, u, hd⟩ := untransform_ok hu h
  have hle := parse_offset_le hp
  have e1 : info.dataOffset.toNat = headerSize t := by rw [reported_of_parse hp, reported_offset]
  have e2 : info.dataLength.toNat = reportedSize t := by rw [reported_of_parse hp, reported_length]
  have hs : ∀ o l, o + l ≤ headerSize t → slice t' o l = slice t o l := by
    intro o l hol
    have a1 : slice t' o l = slice (t'.take (headerSize t)) o l := by
      unfold slice
      rw [List.drop_take, List.take_take, Nat.min_eq_left (by omega)]
    have a2 : slice t o l = slice (t.take (headerSize t)) o l := by
      unfold slice
      rw [List.drop_take, List.take_take, Nat.min_eq_left (by omega)]
    rw [a1, a2, hh]
  have hp' := parse_same_header hp hl (hs _ _ (by omega))
  have q1 := untransform_eq p t out hp e1 e2 (by omega) h3 (by omega)
  have q2 := untransform_eq p t' out' hp' e1 e2 (by omega) (by omega) (by omega)
  rw [hs 0 4 (by omega)] at q2
  rw [e1, e2] at hd
  have hsl : (slice t (headerSize t) (reportedSize t)).length = reportedSize t := slice_length_of_le (by omega)
  have hsl' : (slice t' (headerSize t) (reportedSize t)).length = reportedSize t := slice_length_of_le (by omega)
  obtain ⟨u', n, hd', lu, lu', hn, hb⟩ := dispatch_pair (num_zero (b := t) (by omega)).symm
    (by rw [slice_length_of_le (by omega), hsl]) hd (slice t' (headerSize t) (reportedSize t))
    (slice out' (headerSize t) (reportedSize t)) (by rw [hsl, hsl']) (by rw [slice_length_of_le (by omega), hsl])
  rw [hd] at q1
  rw [hd'] at q2
  rw [h] at q1
  simp only [] at q1 q2
  rw [hsl] at lu lu' hn
  have hform : ∀ (x o v : Buf), x.length = t.length → o.length = t.length →
      (if headerSize t + reportedSize t < x.length then
          if o.length = x.length then
            some (assemble (to32 .little 0x20534444#32) x v (x.drop (headerSize t + reportedSize t)) (headerSize t),
              (Except.ok () : Except TransformError Unit))
          else none
        else some (assemble (to32 .little 0x20534444#32) x v (o.drop (headerSize t + reportedSize t)) (headerSize t), .ok ())) =
      some (assemble (to32 .little 0x20534444#32) x v (x.drop (headerSize t + reportedSize t)) (headerSize t), .ok ()) := by
    intro x o v hx hy
    by_cases hlt : headerSize t + reportedSize t < x.length
    · rw [if_pos hlt, if_pos (by omega)]
    · rw [if_neg hlt, List.drop_of_length_le (l := o) (by omega), List.drop_of_length_le (l := x) (by omega)]
  rw [hform t out u rfl ho] at q1
  rw [hform t' out' u' hl ho'] at q2
  simp only [Option.some.injEq, Prod.mk.injEq, and_true] at q1
  have hw4 : (to32 .little 0x20534444#32).length = 4 := to32_length _ _
  refine ⟨_, n, q2, ?_, ?_, by omega, ?_, ?_, ?_, ?_, ?_⟩
  · rw [q1, assemble_length hw4 (by omega) (by omega)]; simp; omega
  · rw [assemble_length hw4 (by omega) (by omega)]; simp; omega
  · rw [q1]
    unfold assemble
    have hpl := fun (x : Buf) hx => assemble_prefix_length (magic := to32 .little 0x20534444#32) (input := x) (off := headerSize t) hw4
      (by omega) hx
    rw [List.append_assoc _ u', List.take_left' (hpl t' (by omega)), List.append_assoc _ u, List.take_left' (hpl t (by omega)),
      hs _ _ (by omega)]
  · have := assemble_rest (magic := to32 .little 0x20534444#32) (input := t) (tex := u)
      (rest := t.drop (headerSize t + reportedSize t)) hw4 (by omega : 4 ≤ headerSize t) (by omega)
    rwa [lu, ← q1] at this
  · have := assemble_rest (magic := to32 .little 0x20534444#32) (input := t') (tex := u')
      (rest := t'.drop (headerSize t + reportedSize t)) hw4 (by omega : 4 ≤ headerSize t) (by omega)
    rwa [lu'] at this
  · exact hn
  · intro i hi
    have g1 : textureIn t r = u := by
      have := assemble_tex (magic := to32 .little 0x20534444#32) (input := t) (tex := u)
        (rest := t.drop (headerSize t + reportedSize t)) hw4 (by omega : 4 ≤ headerSize t) (by omega)
      rwa [lu, ← q1] at this
    have g2 := assemble_tex (magic := to32 .little 0x20534444#32) (input := t') (tex := u')
        (rest := t'.drop (headerSize t + reportedSize t)) hw4 (by omega : 4 ≤ headerSize t) (by omega)
    rw [lu'] at g2
    rw [g1]
    unfold textureIn
    rw [g2]
    exact hb i hi

/-- **C93** (one byte): if exactly one byte `q` behind the header is wrong, then the restored file is wrong in exactly one block, the one
that the byte belongs to, or, if the byte comes after the texture, in exactly that byte. -/
theorem C93_one_byte (p : Platform) (hu : 2 ^ 32 - 1 ≤ p.env.usizeMax) (t t' out out' r : Buf) (ho : out.length = t.length)
    (ho' : out'.length = t.length) (hl : t'.length = t.length) (q : Nat) (hq : headerSize t ≤ q) (hne : t'[q]? ≠ t[q]?)
    (heq : ∀ x, x ≠ q → t'[x]? = t[x]?) (h : untransform p t out = some (r, .ok ())) :
    ∃ r', untransform p t' out' = some (r', .ok ()) ∧ r'.length = r.length ∧
      if q < headerSize t + reportedSize t then
        ∃ i n, reportedSize t = n * blockSizeOf t ∧ i < n ∧ Owns (sectionsOf t) n i (q - headerSize t) ∧
          block (blockSizeOf t) (textureIn t r') i ≠ block (blockSizeOf t) (textureIn t r) i ∧
          ∀ x, r'[x]? ≠ r[x]? → headerSize t + i * blockSizeOf t ≤ x ∧ x < headerSize t + (i + 1) * blockSizeOf t
      else ∀ x, r'[x]? ≠ r[x]? ↔ x = q := by
  have hh : t'.take (headerSize t) = t.take (headerSize t) := by
    apply List.ext_getElem?
    intro x
    rw [List.getElem?_take, List.getElem?_take]
    by_cases hx : x < headerSize t
    · rw [if_pos hx, if_pos hx, heq x (by omega)]
    · rw [if_neg hx, if_neg hx]
  obtain ⟨r', n, h1, l1, l2, hfit, e1, e2, e3, hn, hb⟩ := C93_damage p hu t t' out out' r ho ho' hl hh h
  have hB : 0 < blockSizeOf t := by unfold blockSizeOf; split <;> omega
  -- bytes of the three parts
  have p1 : ∀ x, x < headerSize t → r'[x]? = r[x]? := by
    intro x hx
    have := congrArg (fun l => l[x]?) e1
    simpa only [List.getElem?_take, if_pos hx] using this
  have p3 : ∀ x, headerSize t + reportedSize t ≤ x → r'[x]? = t'[x]? ∧ r[x]? = t[x]? := by
    intro x hx
    have a := congrArg (fun l => l[x - (headerSize t + reportedSize t)]?) e2
    have b := congrArg (fun l => l[x - (headerSize t + reportedSize t)]?) e3
    simp only [List.getElem?_drop] at a b
    rw [show headerSize t + reportedSize t + (x - (headerSize t + reportedSize t)) = x by omega] at a b
    exact ⟨b, a⟩
  have p2 : ∀ j, j < n → block (blockSizeOf t) (textureIn t r') j = block (blockSizeOf t) (textureIn t r) j →
      ∀ x, headerSize t + j * blockSizeOf t ≤ x → x < headerSize t + (j + 1) * blockSizeOf t → r'[x]? = r[x]? := by
    intro j hj hbl x h3 h4
    have hjn : (j + 1) * blockSizeOf t ≤ n * blockSizeOf t := Nat.mul_le_mul_right _ hj
    have hm : (j + 1) * blockSizeOf t = j * blockSizeOf t + blockSizeOf t := by rw [Nat.add_mul, Nat.one_mul]
    have ht : ∀ y : Buf, (block (blockSizeOf t) (textureIn t y) j)[x - headerSize t - j * blockSizeOf t]? = y[x]? := by
      intro y
      unfold block textureIn slice
      simp only [List.getElem?_take, List.getElem?_drop]
      rw [if_pos (by omega), if_pos (by omega)]
      congr 1
      omega
    rw [← ht r', ← ht r, hbl]
  refine ⟨r', h1, by omega, ?_⟩
  split
  · rename_i hlt
    have hgt : ∀ y : Buf, ∀ x, (textureIn t y)[x]? = if x < reportedSize t then y[headerSize t + x]? else none := by
      intro y x
      unfold textureIn slice
      rw [List.getElem?_take, List.getElem?_drop]
    obtain ⟨i, hi, hown, hag⟩ := agree_one (ws := sectionsOf t) (n := n) (p := q - headerSize t) (a := textureIn t t)
      (b := textureIn t t') (by rw [sectionsOf_sum]; omega)
      (by
        rw [hgt, hgt, if_pos (by omega), if_pos (by omega), show headerSize t + (q - headerSize t) = q by omega]
        exact fun e => hne e.symm)
      (by
        intro x hx
        rw [hgt, hgt]
        split
        · rw [heq _ (by omega)]
        · rfl)
    refine ⟨i, n, hn, hi, hown, fun e => ((hag i hi).1 ((hb i hi).1 e)) rfl, fun x hx => ?_⟩
    by_cases hx1 : x < headerSize t
    · exact absurd (p1 x hx1) hx
    by_cases hx3 : headerSize t + reportedSize t ≤ x
    · exact absurd (by rw [(p3 x hx3).1, (p3 x hx3).2, heq x (by omega)]) hx
    have hj : (x - headerSize t) / blockSizeOf t < n := (Nat.div_lt_iff_lt_mul hB).2 (by omega)
    have hd1 := Nat.div_mul_le_self (x - headerSize t) (blockSizeOf t)
    have hd2 := Nat.lt_mul_div_succ (x - headerSize t) hB
    rw [Nat.mul_comm] at hd2
    by_cases hji : (x - headerSize t) / blockSizeOf t = i
    · rw [hji] at hd1 hd2
      omega
    · exact absurd (p2 _ hj ((hb _ hj).2 ((hag _ hj).2 hji)) x (by omega) (by omega)) hx
  · rename_i hge
    intro x
    constructor
    · intro hx
      by_contra hxq
      apply hx
      by_cases hx1 : x < headerSize t
      · exact p1 x hx1
      by_cases hx3 : headerSize t + reportedSize t ≤ x
      · rw [(p3 x hx3).1, (p3 x hx3).2, heq x hxq]
      have hj : (x - headerSize t) / blockSizeOf t < n := (Nat.div_lt_iff_lt_mul hB).2 (by omega)
      have hd1 := Nat.div_mul_le_self (x - headerSize t) (blockSizeOf t)
      have hd2 := Nat.lt_mul_div_succ (x - headerSize t) hB
      rw [Nat.mul_comm] at hd2
      refine p2 _ hj ((hb _ hj).2 ?_) x (by omega) (by omega)
      have : textureIn t t' = textureIn t t := by
        apply List.ext_getElem?
        intro y
        unfold textureIn slice
        rw [List.getElem?_take, List.getElem?_drop, List.getElem?_take, List.getElem?_drop]
        split
        · rw [heq _ (by omega)]
        · rfl
      rw [this]
      exact fun _ _ => rfl
    · rintro rfl
      rw [(p3 _ (by omega)).1, (p3 _ (by omega)).2]
      exact hne

/-- The settings are in the lowest nine bits. -/
theorem dispatch_mod {m : Machine} {w w' : U32} (hw : w'.toNat % 512 = w.toNat % 512) (a out : Buf) :
    dispatchUntransform m ⟨w'⟩ a out = dispatchUntransform m ⟨w⟩ a out := by
  obtain ⟨g1, g2⟩ := C36_dispatch_obeys_header m ⟨w⟩ a out
  obtain ⟨k1, k2⟩ := C36_dispatch_obeys_header m ⟨w'⟩ a out
  by_cases hl : out.length < a.length
  · rw [g1 hl, k1 hl]
  obtain ⟨h3, h4, h5, h6⟩ := g2 (by omega)
  obtain ⟨k3, k4, k5, k6⟩ := k2 (by omega)
  simp only [] at h3 h4 h5 h6 k3 k4 k5 k6
  have e1 : w'.toNat % 16 = w.toNat % 16 := by omega
  have e2 : w'.toNat / 16 % 4 = w.toNat / 16 % 4 := by omega
  have e3 : wordSettings w'.toNat = wordSettings w.toNat := by
    unfold wordSettings
    rw [show w'.toNat / 128 % 4 = w.toNat / 128 % 4 by omega, show w'.toNat / 64 % 2 = w.toNat / 64 % 2 by omega]
  rw [e1, e2, e3] at k5 k6
  rw [e1] at k3
  rw [e1, e2] at k4
  by_cases t1 : 2 ≤ w.toNat % 16
  · rw [h3 t1, k3 t1]
  by_cases t2 : w.toNat / 16 % 4 = 0
  swap
  · rw [h4 (by omega) t2, k4 (by omega) t2]
  by_cases t0 : w.toNat % 16 = 0
  · by_cases ha : a.length % 8 = 0
    · obtain ⟨o, a1, a2⟩ := (h5 t0 t2).2 ha
      obtain ⟨o', b1, b2⟩ := (k5 t0 t2).2 ha
      rw [a1] at b1
      cases b1
      rw [a2, b2]
    · rw [(h5 t0 t2).1 ha, (k5 t0 t2).1 ha]
  · by_cases ha : a.length % 16 = 0
    · obtain ⟨o, a1, a2⟩ := (h6 (by omega) t2).2 ha
      obtain ⟨o', b1, b2⟩ := (k6 (by omega) t2).2 ha
      rw [a1] at b1
      cases b1
      rw [a2, b2]
    · rw [(h6 (by omega) t2).1 ha, (k6 (by omega) t2).1 ha]

/-- **C93** (first four bytes): of the first four bytes only the lowest nine bits matter; damage in the other bits is repaired. -/
theorem C93_tag (p : Platform) (hu : 2 ^ 32 - 1 ≤ p.env.usizeMax) (t t' out r : Buf) (hl : t'.length = t.length)
    (hd : t'.drop 4 = t.drop 4) (hw : num t' 0 % 512 = num t 0 % 512) (h : untransform p t out = some (r, .ok ())) :
    untransform p t' out = some (r, .ok ()) := by
  obtain ⟨info, hp, h1, h2, h3, u, _⟩ := untransform_ok hu h
  have hle := parse_offset_le hp
  have hs : ∀ o l, 4 ≤ o → slice t' o l = slice t o l := by
    intro o l ho
    have e : ∀ x : Buf, slice x o l = ((x.drop 4).drop (o - 4)).take l := by
      intro x
      rw [List.drop_drop, show 4 + (o - 4) = o by omega]
      rfl
    rw [e, e, hd]
  have hdr : ∀ o, 4 ≤ o → t'.drop o = t.drop o := by
    intro o ho
    rw [show o = 4 + (o - 4) by omega, ← List.drop_drop, ← List.drop_drop, hd]
  have hp' := parse_same_header hp hl (hs _ _ (by omega))
  rw [← h, untransform_eq p t out hp rfl rfl h1 h3 h2, untransform_eq p t' out hp' rfl rfl (by omega) (by omega) h2,
    dispatch_mod (w := of32 .little (slice t 0 4)) (by rw [← num_zero (by omega), ← num_zero (by omega), hw]),
    hs _ _ (by omega), hl, hdr _ (by omega)]
  unfold assemble
  rw [hs _ _ (by omega)]

/-- **C93** (sources): two files with the same length and the same header are transformed, and the settings chosen are the same.
The results have the same header; a block is the same in both sources exactly if the bytes that belong to it are the same in both
results. -/
theorem C93_source (p : Platform) (hu : 2 ^ 32 - 1 ≤ p.env.usizeMax) (dbg : E → String) (bundle bundle' : Bundle σ E)
    (x x' out out' o o' : Buf) (st st' st2 st2' : σ) (hin : x.length ≤ p.env.usizeMax) (ho : out.length = x.length)
    (hl : x'.length = x.length) (ho' : out'.length = x.length) (hh : x'.take (headerSize x) = x.take (headerSize x))
    (h : transformBundle p dbg bundle x out st = some (o, st', .ok ()))
    (h' : transformBundle p dbg bundle' x' out' st2 = some (o', st2', .ok ())) (htag : num o' 0 = num o 0) :
    ∃ n, reportedSize x = n * blockSizeOf o ∧ o'.take (headerSize x) = o.take (headerSize x) ∧
      ∀ i, i < n → (AgreeOn (sectionsOf o) n i (textureIn x o) (textureIn x o') ↔
        block (blockSizeOf o) (textureIn x x') i = block (blockSizeOf o) (textureIn x x) i) := by
  obtain ⟨hol, hback⟩ := C26_dds_roundtrip p p rfl id hu dbg bundle x out o st st' hin ho h out ho
  obtain ⟨hol', hback'⟩ := C26_dds_roundtrip p p rfl id hu dbg bundle' x' out' o' st2 st2' (by omega) (by omega) h' out' (by omega)
  have hrep : headerSize o = headerSize x ∧ reportedSize o = reportedSize x ∧ 4 ≤ o.length ∧
      parseIgnoreMagic p x = some (some (reported x)) := by
    obtain ⟨info, f, tex, w, hp, hi, ha, _, hf, hd, hd1, _, rfl⟩ := transform_ok hu h
    have hp2 := (parseDds_some hp).1
    have hle := parse_offset_le hp2
    have hw4 : (to32 .little w.word).length = 4 := to32_length _ _
    have hsame := parse_same_header hp2 hol (by rw [assemble_header hw4 (by omega)])
    have r2 := (reported_of_parse hp2).symm.trans (reported_of_parse hsame)
    have r1 := reported_of_parse hp2
    refine ⟨?_, ?_, by omega, by rw [hp2, r1]⟩
    · rw [← reported_offset, ← r2, reported_offset]
    · rw [← reported_length, ← r2, reported_length]
  obtain ⟨_, _, hrest, _⟩ := C28_dds_rest_exact p hu dbg bundle x out o st st' h
  obtain ⟨_, _, hrest', _⟩ := C28_dds_rest_exact p hu dbg bundle' x' out' o' st2 st2' h'
  have hfit := parse_offset_le hrep.2.2.2
  rw [reported_offset] at hfit
  have hhx : ∀ i, i < headerSize x → x'[i]? = x[i]? := by
    intro i hi
    have := congrArg (fun l => l[i]?) hh
    simpa only [List.getElem?_take, if_pos hi] using this
  have hsz : headerSize x' = headerSize x := by
    have hp' := parse_same_header hrep.2.2.2 hl (by
      rw [reported_offset]
      refine (slice_eq_iff (by omega) (by omega)).2 fun i h1 h2 => hhx i (by omega))
    have := reported_of_parse hp'
    rw [← reported_offset, ← this, reported_offset]
  have hhead : o'.take (headerSize o) = o.take (headerSize o) := by
    apply List.ext_getElem?
    intro i
    rw [List.getElem?_take, List.getElem?_take, hrep.1]
    by_cases hi : i < headerSize x
    · rw [if_pos hi, if_pos hi]
      by_cases h4 : i < 4
      · have hz := num_zero (b := o) (by omega)
        have hz' := num_zero (b := o') (by omega)
        have hw : of32 .little (slice o' 0 4) = of32 .little (slice o 0 4) := BitVec.eq_of_toNat_eq (by omega)
        rw [slice4 (by omega), slice4 (by omega)] at hw
        have := congrArg (to32 .little) hw
        rw [to32_of32, to32_of32, ← slice4 (by omega), ← slice4 (by omega)] at this
        exact (slice_eq_iff (by omega) (by omega)).1 this i (by omega) (by omega)
      · rcases hrest i (by omega) with e | e | e
        · rcases hrest' i (by omega) with e' | e' | e'
          · rw [e, e', hhx i hi]
          · omega
          · omega
        · omega
        · omega
    · rw [if_neg hi, if_neg hi]
  obtain ⟨r', n, q1, _, _, _, _, _, _, q2, q3⟩ := C93_damage p hu o o' out out' x (by omega) (by omega) (by omega) hhead hback
  rw [hback', Option.some.injEq, Prod.mk.injEq] at q1
  rw [← q1.1] at q3
  refine ⟨n, by rw [← hrep.2.1, q2], by rw [← hrep.1, hhead], fun i hi => ?_⟩
  have := q3 i hi
  unfold textureIn at this ⊢
  rw [hrep.1, hrep.2.1] at this
  exact this.symm

/-! ## Concrete cases -/

/-- Two blocks and two bytes after them, tagged as BC1 with split end points and without decorrelation. -/
def damagedFile (b : Byte) : Buf :=
  to32 .little 448 ++ (ddsHeader 0x1007#32 4#32 8#32 1#32 4#32 "DXT1" []).drop 4 ++
    [1, 2, b, 4, 5, 6, 7, 8, 9, 10, 11, 12, 13, 14, 15, 16, 17, 18]

/-- The file can be restored; a wrong byte 130 belongs to the second block, and the restored files differ. -/
example :
    ((untransform somePlatform (damagedFile 3) (List.replicate 146 0)).map fun x => x.2.toOption) = some (some ()) ∧
    ((untransform somePlatform (damagedFile 30) (List.replicate 146 0)).map fun x => x.2.toOption) = some (some ()) ∧
    (untransform somePlatform (damagedFile 3) (List.replicate 146 0)).map (fun x => x.1.drop 128) =
      some [1, 2, 5, 6, 9, 10, 11, 12, 3, 4, 7, 8, 13, 14, 15, 16, 17, 18] ∧
    headerSize (damagedFile 3) = 128 ∧ reportedSize (damagedFile 3) = 16 ∧ blockSizeOf (damagedFile 3) = 8 ∧
    sectionsOf (damagedFile 3) = [2, 2, 4] ∧ Owns [2, 2, 4] 2 1 (130 - 128) ∧
    (damagedFile 30).take 128 = (damagedFile 3).take 128 ∧ (damagedFile 30)[130]? ≠ (damagedFile 3)[130]? := by
  refine ⟨by decide +kernel, by decide +kernel, by decide +kernel, by decide +kernel, by decide +kernel, by decide +kernel,
    by decide +kernel, ⟨0, 2, rfl, by decide, by decide⟩, by decide +kernel, by decide +kernel⟩

end Dlt.Props
