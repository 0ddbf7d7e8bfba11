import Verif.Model.NormTransform
import Verif.Lemmas.NormSplit
import Verif.Lemmas.SplitEndpoints
import Verif.Lemmas.Auto
/-! The BC1 transform with normalization is the plain transform of normalized blocks. -/

namespace Dlt.Norm
open Spec

theorem mapBlocks_append {B : Nat} {F : Buf → Buf} {A R : Buf} {a : Nat} (ha : A.length = a * B) (k : Nat) :
    mapBlocks B F (A ++ R) (a + k) = mapBlocks B F A a ++ mapBlocks B F R k := by
  unfold mapBlocks
  rw [List.range_add, List.flatMap_append, List.flatMap_map]
  congr 1
  · apply flatMap_congr_range
    intro i hi
    have : (i + 1) * B ≤ a * B := Nat.mul_le_mul_right _ hi
    rw [Nat.succ_mul] at this
    rw [block, slice_append_left _ _ _ _ (by omega)]; rfl
  · apply flatMap_congr_range
    intro i hi
    rw [block, slice_append_right _ _ _ (i * B) _ (by rw [ha, Nat.add_mul])]; rfl

/-- `decorrelate_ycocg_r_ptr` in place. -/
theorem decorrelateInPlace_eq (e : Endian) (v : Variant) (buf : Buf) (n : Nat) (h : n * 2 ≤ buf.length) :
    Batch.decorrelateInPlace e buf n v = some (mapBlocks 2 (encCol e v) buf n ++ buf.drop (n * 2)) := by
  have hloop : ∀ f : U16 → U16, forM (fun x buf => do
      let color ← ld16 e buf (x * 2)
      st16 e buf (x * 2) (f color)) 0 n buf =
      some (mapBlocks 2 (fun b => to16 e (f (of16 e b))) buf n ++ buf.drop (n * 2)) := by
    intro f
    have hF : ∀ b : Buf, b.length = 2 → (to16 e (f (of16 e b))).length = 2 := fun _ _ => to16_length _ _
    suffices hs : Ok (forM (fun x buf => do
        let color ← ld16 e buf (x * 2)
        st16 e buf (x * 2) (f color)) 0 n buf) (fun s => s =
        mapBlocks 2 (fun b => to16 e (f (of16 e b))) buf n ++ buf.drop (n * 2)) by
      obtain ⟨a, ha, rfl⟩ := hs; exact ha
    apply Ok.forM (fun x s => s = mapBlocks 2 (fun b => to16 e (f (of16 e b))) buf x ++ buf.drop (x * 2)) 0 n
    · simp [mapBlocks]
    · rintro x s _ hx rfl
      have hl := mapBlocks_length hF (show x * 2 ≤ buf.length by omega)
      have hlen : (mapBlocks 2 (fun b => to16 e (f (of16 e b))) buf x ++ buf.drop (x * 2)).length = buf.length := by
        rw [List.length_append, hl, List.length_drop]; omega
      rw [ld16_some (by omega)]
      refine ⟨_, ?_, rfl⟩
      simp only [Option.bind_eq_bind, Option.bind_some, st16]
      have hsl : slice (mapBlocks 2 (fun b => to16 e (f (of16 e b))) buf x ++ buf.drop (x * 2)) (x * 2) 2 =
          block 2 buf x := by
        rw [slice_append_right _ _ _ 0 _ (by omega)]
        simp [slice, block]
      rw [hsl, st_put (by rw [to16_length, hlen]; omega)]
      exact congrArg some (put_next (F := fun b => to16 e (f (of16 e b))) hF (by omega))
    · rintro s rfl; simp
  cases v
  · exact hloop _
  · exact hloop _
  · exact hloop _
  · have : mapBlocks 2 (encCol e .none) buf n = mapBlocks 2 id buf n := by
      apply mapBlocks_congr
      intro i hi
      exact encCol_none e (slice_length_of_le (by omega))
    rw [this, mapBlocks_id h, List.take_append_drop]; rfl

section
variable {n : Nat} {blk : Nat → Buf}

/-- A two-byte section, item by item. -/
theorem mapBlocks_sect2 (F : Buf → Buf) {o : Nat} (hb : ∀ i, i < n → (blk i).length = 8) (h : o + 2 ≤ 8) :
    mapBlocks 2 F (sect n o 2 blk) n = (List.range n).flatMap fun i => F (slice (blk i) o 2) := by
  apply flatMap_congr_range
  intro i hi
  have := sect_get (rest := []) hb h hi
  rw [List.append_nil] at this
  rw [block, this]

/-- The four-byte colour section, item by item. -/
theorem mapBlocks_sect4 (F : Buf → Buf) (hb : ∀ i, i < n → (blk i).length = 8) :
    mapBlocks 2 F (sect n 0 4 blk) (n + n) =
      (List.range n).flatMap fun i => F (slice (blk i) 0 2) ++ F (slice (blk i) 2 2) := by
  induction n with
  | zero => rfl
  | succ n ih =>
    have hb' : ∀ i, i < n → (blk i).length = 8 := fun i hi => hb i (by omega)
    have hl := sect_length (o := 0) (w := 4) hb' (by omega)
    rw [sect_succ, show n + 1 + (n + 1) = (n + n) + 2 by omega,
      mapBlocks_append (by rw [hl]; omega), ih hb', List.range_succ, List.flatMap_append]
    congr 1
    simp [mapBlocks, block, List.range_succ, slice_slice]

theorem columns_pair (hb : ∀ i, i < n → (blk i).length = 8) :
    columns 4 Split.pairFields (sect n 0 4 blk) = sect n 0 2 blk ++ sect n 2 2 blk := by
  have hl := sect_length (o := 0) (w := 4) hb (by omega)
  have hc : ∀ o, o + 2 ≤ 4 → column 4 (sect n 0 4 blk) (fun b => slice b o 2) = sect n o 2 blk := by
    intro o ho
    rw [column, hl, Nat.mul_div_cancel _ (by omega)]
    apply flatMap_congr_range
    intro i hi
    have := sect_get (rest := []) (o := 0) (w := 4) hb (by omega) hi
    rw [List.append_nil] at this
    rw [block, this, slice_slice _ _ _ _ _ ho, Nat.zero_add]
  simp only [columns, Split.pairFields, List.flatMap_cons, List.flatMap_nil, List.append_nil]
  rw [hc 0 (by omega), hc 2 (by omega)]

end

namespace Bc1
open Dlt.Bc1

/-- The blocks of `data` as a function. -/
theorem encode_sect (e : Endian) (s : ColourSettings) {data : Buf} {n : Nat} (hd : data.length = n * 8) :
    encode e s data = (if s.split then
        (List.range n).flatMap (fun i => encCol e s.decorr (slice (block 8 data i) 0 2)) ++
        (List.range n).flatMap (fun i => encCol e s.decorr (slice (block 8 data i) 2 2))
      else (List.range n).flatMap (fun i => encCol e s.decorr (slice (block 8 data i) 0 2) ++
        encCol e s.decorr (slice (block 8 data i) 2 2))) ++ sect n 4 4 (block 8 data) := by
  have hc : ∀ f, column 8 data f = (List.range n).flatMap fun i => f (block 8 data i) := by
    intro f; rw [column, hd, Nat.mul_div_cancel _ (by omega)]
  obtain ⟨v, split⟩ := s
  cases split <;> simp [encode, columns, bc1Fields, hc, sect]

theorem stdTransform_eq (m : Machine) {inp out : Buf} {n : Nat} (hd : inp.length = n * 8)
    (ho : n * 8 ≤ out.length) :
    stdTransform m inp out (n * 8) =
      some (sect n 0 4 (block 8 inp) ++ (sect n 4 4 (block 8 inp) ++ out.drop (n * 8))) := by
  have h := transform_eq m ⟨.none, false⟩ hd ho
  have hs : transformWithSettings m inp out (n * 8) ⟨.none, false⟩ = stdTransform m inp out (n * 8) := rfl
  rw [hs, ← columns_none m.endian false hd] at h
  rw [h, ← List.append_assoc]
  have h4 : (fun i => slice (block 8 inp i) 0 2 ++ slice (block 8 inp i) 2 2) = fun i => slice (block 8 inp i) 0 4 :=
    funext fun i => slice_append_slice _ 0 2 2
  have hc : ∀ f, column 8 inp f = (List.range n).flatMap fun i => f (block 8 inp i) := by
    intro f; rw [column, hd, Nat.mul_div_cancel _ (by omega)]
  simp [columns, bc1Fields, hc, sect, h4]

theorem transformSeparate_eq (m : Machine) {inp work out : Buf} {n : Nat} (hd : inp.length = n * 8)
    (hw : n * 4 ≤ work.length) (ho : n * 8 ≤ out.length) :
    transformSeparate m inp work out (n * 8) =
      some (sect n 0 4 (block 8 inp) ++ work.drop (n * 4),
        out.take (n * 4) ++ (sect n 4 4 (block 8 inp) ++ out.drop (n * 8))) := by
  have q2 : n * 8 / 2 = n * 4 := by omega
  have hb : ∀ i, i < n → (block 8 inp i).length = 8 := fun i hi => by
    rw [block, slice_length_of_le (by omega)]
  have hcl := columns_length (by omega) hd (fits (col := id) (fun _ h => h) false)
  rw [widths_sum] at hcl
  have hcol : columns 8 (bc1Fields id false) inp = sect n 0 4 (block 8 inp) ++ sect n 4 4 (block 8 inp) := by
    have h4 : (fun i => slice (block 8 inp i) 0 2 ++ slice (block 8 inp i) 2 2) = fun i => slice (block 8 inp i) 0 4 :=
      funext fun i => slice_append_slice _ 0 2 2
    have hc : ∀ f, column 8 inp f = (List.range n).flatMap fun i => f (block 8 inp i) := by
      intro f; rw [column, hd, Nat.mul_div_cancel _ (by omega)]
    simp [columns, bc1Fields, hc, sect, h4]
  have l1 := sect_length (o := 0) (w := 4) hb (by omega)
  have l2 := sect_length (o := 4) (w := 4) hb (by omega)
  have hml : (work.take (n * 4) ++ out.drop (n * 4)).length = out.length := by
    rw [List.length_append, List.length_take, List.length_drop]; omega
  have ha := agree_startT (n := n) (ws := [4, 4]) (C := columns 8 (bc1Fields id false) inp)
    (out := work.take (n * 4) ++ out.drop (n * 4)) (by rw [hcl]; simp) (by rw [hml]; simpa using ho)
  have hdrop : (work.take (n * 4) ++ out.drop (n * 4)).drop (n * 8) = out.drop (n * 8) := by
    rw [List.drop_append, List.length_take, List.drop_eq_nil_of_le (by rw [List.length_take]; omega),
      List.nil_append, List.drop_drop]
    congr 1; omega
  have hp : ∀ e, Ok (transformPtrs e inp 0 (work.take (n * 4) ++ out.drop (n * 4)) 0 (n * 4) (n * 8))
      (Agree (DoneT n [4, 4] n) (columns 8 (bc1Fields id false) inp ++
        (work.take (n * 4) ++ out.drop (n * 4)).drop (n * 8))) := fun e => by
    have := transformPtrs_ok e hd rfl ha (Nat.zero_le _)
    simpa using this
  have hk : ∀ r, Ok r (Agree (DoneT n [4, 4] n) (columns 8 (bc1Fields id false) inp ++
        (work.take (n * 4) ++ out.drop (n * 4)).drop (n * 8))) →
      (r.bind fun mem => some (mem.take (n * 4) ++ work.drop (n * 4), out.take (n * 4) ++ mem.drop (n * 4))) =
      some (sect n 0 4 (block 8 inp) ++ work.drop (n * 4),
        out.take (n * 4) ++ (sect n 4 4 (block 8 inp) ++ out.drop (n * 8))) := by
    intro r hr
    have := ok_endT hr
    rw [this, hdrop, hcol, Option.bind_some, List.append_assoc, List.take_left' l1, List.drop_left' l1]
  unfold transformSeparate
  rw [if_neg (by omega), q2]
  dsimp only
  cases m with
  | x86 f =>
    dsimp only
    split
    · exact hk _ (transformAvx512Ptrs_ok hd rfl ha)
    split
    · exact hk _ (transformAvx2Ptrs_ok hd rfl ha)
    split
    · exact hk _ (transformSse2Ptrs_ok hd rfl ha)
    · exact hk _ (hp _)
  | other e fr => exact hk _ (hp e)

/-- Splitting and decorrelating the colours `sect n 0 4 blk` in front of indices. -/
theorem split_decorrelate (m : Machine) (v : Variant) {n : Nat} {blk : Nat → Buf}
    (hb : ∀ i, i < n → (blk i).length = 8) {rc pre rest : Buf} (hpre : pre.length = n * 4) :
    (do let out ← Split.splitColorEndpoints m (slice (sect n 0 4 blk ++ rc) 0 (n * 4)) (pre ++ rest) (n * 4)
        Batch.decorrelateInPlace m.endian out (n * 2) v) =
      some ((List.range n).flatMap (fun i => encCol m.endian v (slice (blk i) 0 2)) ++
        ((List.range n).flatMap (fun i => encCol m.endian v (slice (blk i) 2 2)) ++ rest)) := by
  have l := sect_length (o := 0) (w := 4) hb (by omega)
  have l0 := sect_length (o := 0) (w := 2) hb (by omega)
  have l2 := sect_length (o := 2) (w := 2) hb (by omega)
  have hs : slice (sect n 0 4 blk ++ rc) 0 (n * 4) = sect n 0 4 blk := by
    rw [slice_append_left _ _ _ _ (by omega), slice_all l]
  rw [hs, Split.split_eq m l (by rw [List.length_append]; omega), List.drop_left' hpre, columns_pair hb]
  show Batch.decorrelateInPlace _ _ _ _ = _
  rw [decorrelateInPlace_eq _ _ _ _ (by simp only [List.length_append]; omega),
    List.drop_left' (by rw [List.length_append]; omega), List.append_assoc,
    show n * 2 = n + n by omega, mapBlocks_append l0, ]
  have := mapBlocks_append (F := encCol m.endian v) (R := rest) l2 0
  rw [Nat.add_zero] at this
  rw [this, mapBlocks_sect2 _ hb (by omega), mapBlocks_sect2 _ hb (by omega)]
  simp [mapBlocks]

/-- Decorrelating unsplit colours in place. -/
theorem nosplit_decorrelate (e : Endian) (v : Variant) {n : Nat} {blk : Nat → Buf}
    (hb : ∀ i, i < n → (blk i).length = 8) (rest : Buf) :
    Batch.decorrelateInPlace e (sect n 0 4 blk ++ rest) (n * 2) v =
      some ((List.range n).flatMap (fun i => encCol e v (slice (blk i) 0 2) ++ encCol e v (slice (blk i) 2 2)) ++
        rest) := by
  have l := sect_length (o := 0) (w := 4) hb (by omega)
  rw [decorrelateInPlace_eq _ _ _ _ (by simp only [List.length_append]; omega),
    List.drop_left' (by omega), show n * 2 = n + n by omega]
  have := mapBlocks_append (F := encCol e v) (R := rest) (B := 2) (a := n + n) (by rw [l]; omega) 0
  rw [Nat.add_zero] at this
  rw [this, mapBlocks_sect4 _ hb]
  simp [mapBlocks]

/-- The normalizing transform. -/
theorem transformNormalize_eq (m : Machine) {inp out work : Buf} {n : Nat} (d : Details)
    (hd : inp.length = n * 8) (ho : n * 8 ≤ out.length) (hw : n * 4 ≤ work.length) :
    ∃ work', work'.length = work.length ∧ transformNormalize m inp out work (n * 8) d =
      some (encode m.endian d.untransformSettings (mapBlocks 8 (norm d.norm) inp n) ++ out.drop (n * 8), work') := by
  have q2 : n * 8 / 2 = n * 4 := by omega
  have q8 : n * 8 / 8 = n := by omega
  have q22 : n * 4 / 2 = n * 2 := by omega
  have hb : ∀ i, i < n → (block 8 inp i).length = 8 := fun i hi => by
    rw [block, slice_length_of_le (by omega)]
  have hn : ∀ i, i < n → (norm d.norm (block 8 inp i)).length = 8 := fun i hi => norm_length _ _ (hb i hi)
  have hdl : (mapBlocks 8 (norm d.norm) inp n).length = n * 8 := mapBlocks_length (norm_length d.norm) (by omega)
  have hblk : ∀ i, i < n → block 8 (mapBlocks 8 (norm d.norm) inp n) i = norm d.norm (block 8 inp i) := by
    intro i hi
    have := block_mapBlocks (tail := []) (norm_length d.norm) (show n * 8 ≤ inp.length by omega) hi
    rwa [List.append_nil] at this
  have hpre : (out.take (n * 4)).length = n * 4 := by rw [List.length_take]; omega
  -- the target in terms of the normalized blocks
  have key : ∀ g : Buf → Buf, (List.range n).flatMap (fun i => g (block 8 (mapBlocks 8 (norm d.norm) inp n) i)) =
      (List.range n).flatMap (fun i => g (norm d.norm (block 8 inp i))) := by
    intro g; apply flatMap_congr_range; intro i hi; rw [hblk i hi]
  have ksec : sect n 4 4 (block 8 (mapBlocks 8 (norm d.norm) inp n)) =
      sect n 4 4 (fun i => norm d.norm (block 8 inp i)) := key (fun b => slice b 4 4)
  rw [encode_sect _ _ hdl]
  have knone : d.norm = .none → ∀ b, norm d.norm b = b := by
    intro h b; rw [norm, if_pos h]
  have hsec : ∀ o w, d.norm = .none → sect n o w (fun i => norm d.norm (block 8 inp i)) = sect n o w (block 8 inp) := by
    intro o w h; congr 1; funext i; exact knone h _
  have hnl := sect_length (o := 0) (w := 4) hn (by omega)
  have hil := sect_length (o := 0) (w := 4) hb (by omega)
  obtain ⟨mode, v, split⟩ := d
  simp only [Details.untransformSettings] at *
  unfold transformNormalize
  simp only [q2, q8, q22]
  by_cases hm : mode = .none
  · rw [if_neg (by simp [hm]), if_neg (by simp [hm])]
    cases split
    · rw [if_neg (by simp)]
      refine ⟨work, rfl, ?_⟩
      rw [stdTransform_eq m hd ho, ← hsec 0 4 hm, ← hsec 4 4 hm]
      simp only [Option.bind_eq_bind, Option.bind_some]
      rw [nosplit_decorrelate _ _ hn]
      simp only [Bool.false_eq_true, if_false]
      rw [key (fun b => encCol m.endian v (slice b 0 2) ++ encCol m.endian v (slice b 2 2)), ksec, List.append_assoc]
      rfl
    · rw [if_pos rfl]
      refine ⟨sect n 0 4 (fun i => norm mode (block 8 inp i)) ++ work.drop (n * 4), ?_, ?_⟩
      rotate_left
      · rw [transformSeparate_eq m hd hw ho, ← hsec 0 4 hm, ← hsec 4 4 hm]
        simp only [Option.bind_eq_bind, Option.bind_some]
        have := split_decorrelate m v hn (rc := work.drop (n * 4)) (rest := sect n 4 4 (fun i => norm mode (block 8 inp i)) ++ out.drop (n * 8)) hpre
        simp only [Option.bind_eq_bind] at this
        rw [← Option.bind_assoc, this]
        simp only [if_true]
        rw [key (fun b => encCol m.endian v (slice b 0 2)), key (fun b => encCol m.endian v (slice b 2 2)), ksec,
          List.append_assoc, List.append_assoc]
        rfl
      · rw [List.length_append, hnl, List.length_drop]; omega
  · cases split
    · rw [if_neg (by simp), if_pos hm]
      refine ⟨work, rfl, ?_⟩
      rw [stdTransform_eq m hd ho]
      simp only [Option.bind_eq_bind, Option.bind_some]
      rw [normalizeSplit_same mode n _ hb]
      simp only [Option.bind_some]
      rw [nosplit_decorrelate _ _ hn]
      simp only [Bool.false_eq_true, if_false]
      rw [key (fun b => encCol m.endian v (slice b 0 2) ++ encCol m.endian v (slice b 2 2)), ksec, List.append_assoc]
      rfl
    · rw [if_pos ⟨hm, rfl⟩]
      refine ⟨sect n 0 4 (fun i => norm mode (block 8 inp i)) ++ work.drop (n * 4), ?_, ?_⟩
      rotate_left
      · rw [transformSeparate_eq m hd hw ho]
        simp only [Option.bind_eq_bind, Option.bind_some]
        have hs := normalizeSplit_sep mode n _ hb (work.drop (n * 4)) (out.take (n * 4)) (out.drop (n * 8))
        rw [hpre] at hs
        rw [hs]
        simp only [Option.bind_some]
        have := split_decorrelate m v hn (rc := work.drop (n * 4)) (rest := sect n 4 4 (fun i => norm mode (block 8 inp i)) ++ out.drop (n * 8)) hpre
        simp only [Option.bind_eq_bind] at this
        rw [← Option.bind_assoc, this]
        simp only [if_true]
        rw [key (fun b => encCol m.endian v (slice b 0 2)), key (fun b => encCol m.endian v (slice b 2 2)), ksec,
          List.append_assoc, List.append_assoc]
        rfl
      · rw [List.length_append, hnl, List.length_drop]; omega

/-- The colour section of a transformed buffer. -/
theorem encode_colours (e : Endian) (s : ColourSettings) {data : Buf} {n : Nat} (hd : data.length = n * 8) :
    slice (encode e s data) 0 (n * 4) = (if s.split then
        (List.range n).flatMap (fun i => encCol e s.decorr (slice (block 8 data i) 0 2)) ++
        (List.range n).flatMap (fun i => encCol e s.decorr (slice (block 8 data i) 2 2))
      else (List.range n).flatMap (fun i => encCol e s.decorr (slice (block 8 data i) 0 2) ++
        encCol e s.decorr (slice (block 8 data i) 2 2))) := by
  rw [encode_sect e s hd]
  have l0 : ((List.range n).flatMap (fun i => encCol e s.decorr (slice (block 8 data i) 0 2))).length = n * 2 :=
    flatMap_range_length _ _ _ fun _ _ => encCol_length _ _ _
  have l2 : ((List.range n).flatMap (fun i => encCol e s.decorr (slice (block 8 data i) 2 2))).length = n * 2 :=
    flatMap_range_length _ _ _ fun _ _ => encCol_length _ _ _
  have l4 : ((List.range n).flatMap (fun i => encCol e s.decorr (slice (block 8 data i) 0 2) ++
      encCol e s.decorr (slice (block 8 data i) 2 2))).length = n * 4 :=
    flatMap_range_length _ _ _ fun _ _ => by rw [List.length_append, encCol_length, encCol_length]
  split
  · rw [slice_append_left _ _ _ _ (by rw [List.length_append]; omega), slice_all (by rw [List.length_append]; omega)]
  · rw [slice_append_left _ _ _ _ (by omega), slice_all l4]

/-- What a candidate is measured on: the colour section of the transform of `data`. -/
theorem prepareVariant_eq (m : Machine) {data work rest : Buf} {n : Nat} (d : Details)
    (hd : data.length = n * 8) (hw : n * 4 ≤ work.length) :
    prepareVariant m (sect n 0 4 (block 8 data) ++ rest) work (n * 8) d =
      some (slice (encode m.endian d.untransformSettings data) 0 (n * 4) ++ work.drop (n * 4)) := by
  have q2 : n * 8 / 2 = n * 4 := by omega
  have q22 : n * 4 / 2 = n * 2 := by omega
  have hb : ∀ i, i < n → (block 8 data i).length = 8 := fun i hi => by
    rw [block, slice_length_of_le (by omega)]
  have l := sect_length (o := 0) (w := 4) hb (by omega)
  rw [encode_colours _ _ hd]
  obtain ⟨mode, v, split⟩ := d
  simp only [prepareVariant, Details.untransformSettings, q2, q22]
  cases split
  · simp only [Bool.false_eq_true, if_false]
    rw [slice_append_left _ _ _ _ (by omega), slice_all l,
      Batch.decorrelateSlice_eq _ _ _ _ (by omega) (by omega), l,
      show n * 4 / 2 = n + n by omega]
    have := mapBlocks_sect4 (encCol m.endian v) hb
    rw [← this]; rfl
  · simp only [if_true]
    have hpre : (work.take (n * 4)).length = n * 4 := by rw [List.length_take]; omega
    have := split_decorrelate m v hb (rc := rest) (rest := work.drop (n * 4)) hpre
    rw [List.take_append_drop] at this
    rw [this, List.append_assoc]

end Bc1
end Dlt.Norm

namespace Dlt.Norm.Bc1
open Spec Dlt.Bc1

variable {σ E : Type}

/-- The search always ends; the work buffer keeps its length. -/
theorem testLoop_total (m : Machine) (est : Estimator σ E) {n : Nat} (comp : Nat) :
    ∀ (cs : List (Details × Buf)) (work : Buf) (st : σ) (best : Details) (bs : Nat),
      (∀ c ∈ cs, ∃ data rest : Buf, data.length = n * 8 ∧ c.2 = sect n 0 4 (block 8 data) ++ rest) →
      n * 4 ≤ work.length →
      ∃ work' st' best', testLoop m est (n * 8) comp cs work st best bs = some (work', st', best') ∧
        n * 4 ≤ work'.length ∧ (best' = best ∨ best' ∈ cs.map Prod.fst)
  | [], work, st, best, _, _, hw => ⟨work, st, best, rfl, hw, .inl rfl⟩
  | (d, inp) :: cs, work, st, best, bs, hc, hw => by
    obtain ⟨data, rest, hd, rfl⟩ := hc (d, inp) (by simp)
    have hl : (slice (encode m.endian d.untransformSettings data) 0 (n * 4)).length = n * 4 := by
      apply slice_length_of_le
      rw [encode_length _ _ (by omega)]; omega
    have hp := prepareVariant_eq m (rest := rest) d hd hw
    have hw' : n * 4 ≤ (slice (encode m.endian d.untransformSettings data) 0 (n * 4) ++ work.drop (n * 4)).length := by
      rw [List.length_append]; omega
    have ih := fun st best bs => testLoop_total m est comp cs _ st best bs (fun c h => hc c (by simp [h])) hw'
    simp only [testLoop]
    rw [hp]
    simp only [Option.bind_eq_bind, Option.bind_some]
    rcases est.estimate st _ comp with ⟨st1, e | size⟩
    · obtain ⟨w, s, b, h1, h2, h3⟩ := ih st1 best bs
      exact ⟨w, s, b, h1, h2, h3.imp id (by simp +contextual)⟩
    · dsimp only
      split
      · obtain ⟨w, s, b, h1, h2, h3⟩ := ih st1 d size
        refine ⟨w, s, b, h1, h2, .inr ?_⟩
        rcases h3 with rfl | h3
        · simp
        · simp [h3]
      · obtain ⟨w, s, b, h1, h2, h3⟩ := ih st1 best bs
        exact ⟨w, s, b, h1, h2, h3.imp id (by simp +contextual)⟩

/-- The earliest candidate of least cost among those that have a cost. -/
def BestOf {S : Type} (cost : S → Option Nat) (order : List S) (s : S) : Prop :=
  ∃ pre post k, order = pre ++ s :: post ∧ cost s = some k ∧ (∀ x ∈ pre, ∀ k', cost x = some k' → k < k') ∧
    ∀ x ∈ post, ∀ k', cost x = some k' → k ≤ k'

theorem testLoop_best (m : Machine) (est : Estimator σ E) {n : Nat} (comp : Nat) (cost : Details → Option Nat) :
    ∀ (cs : List (Details × Buf)) (work : Buf) (st : σ) (best : Details) (bs : Nat),
      (∀ c ∈ cs, ∃ data rest : Buf, data.length = n * 8 ∧ c.2 = sect n 0 4 (block 8 data) ++ rest ∧
        ∀ st, (est.estimate st (slice (encode m.endian c.1.untransformSettings data) 0 (n * 4)) comp).2.toOption =
          cost c.1) →
      n * 4 ≤ work.length →
      ∃ work' st' best', testLoop m est (n * 8) comp cs work st best bs = some (work', st', best') ∧
        n * 4 ≤ work'.length ∧
        ((best' = best ∧ ∀ c ∈ cs.map Prod.fst, ∀ k, cost c = some k → bs ≤ k) ∨
          (BestOf cost (cs.map Prod.fst) best' ∧ ∀ k, cost best' = some k → k < bs))
  | [], work, st, best, _, _, hw => ⟨work, st, best, rfl, hw, .inl ⟨rfl, by simp⟩⟩
  | (d, inp) :: cs, work, st, best, bs, hc, hw => by
    obtain ⟨data, rest, hd, rfl, he⟩ := hc (d, inp) (by simp)
    have hl : (slice (encode m.endian d.untransformSettings data) 0 (n * 4)).length = n * 4 := by
      apply slice_length_of_le
      rw [encode_length _ _ (by omega)]; omega
    have hp := prepareVariant_eq m (rest := rest) d hd hw
    have hw' : n * 4 ≤ (slice (encode m.endian d.untransformSettings data) 0 (n * 4) ++ work.drop (n * 4)).length := by
      rw [List.length_append]; omega
    have ih := fun st best bs => testLoop_best m est comp cost cs _ st best bs (fun c h => hc c (by simp [h])) hw'
    have hsl : slice (slice (encode m.endian d.untransformSettings data) 0 (n * 4) ++ work.drop (n * 4)) 0 (n * 4) =
        slice (encode m.endian d.untransformSettings data) 0 (n * 4) := by
      rw [slice_append_left _ _ _ _ (by omega), slice_all hl]
    have q2 : n * 8 / 2 = n * 4 := by omega
    have he' := he st
    simp only [testLoop]
    rw [hp]
    simp only [Option.bind_eq_bind, Option.bind_some, q2, hsl]
    revert he'
    rcases est.estimate st _ comp with ⟨st1, e | size⟩
    · intro he'
      simp only [Except.toOption] at he'
      obtain ⟨w, s, b, h1, h2, h3⟩ := ih st1 best bs
      refine ⟨w, s, b, h1, h2, h3.imp ?_ ?_⟩
      · rintro ⟨h4, h5⟩
        refine ⟨h4, fun c hcm k hk => ?_⟩
        simp only [List.map_cons, List.mem_cons] at hcm
        rcases hcm with rfl | hcm
        · rw [← he'] at hk; cases hk
        · exact h5 c hcm k hk
      · rintro ⟨⟨pre, post, k, e1, e2, e3, e4⟩, h5⟩
        refine ⟨⟨d :: pre, post, k, by rw [List.map_cons, e1]; rfl, e2, fun x hx k' hk' => ?_, e4⟩, h5⟩
        rcases List.mem_cons.1 hx with rfl | hx
        · rw [← he'] at hk'; cases hk'
        · exact e3 x hx k' hk'
    · intro he'
      simp only [Except.toOption] at he'
      dsimp only
      split
      · rename_i hlt
        obtain ⟨w, s, b, h1, h2, h3⟩ := ih st1 d size
        refine ⟨w, s, b, h1, h2, .inr ?_⟩
        rcases h3 with ⟨rfl, h5⟩ | ⟨⟨pre, post, k, e1, e2, e3, e4⟩, h5⟩
        · refine ⟨⟨[], cs.map Prod.fst, size, rfl, he'.symm, by simp, h5⟩, fun k hk => ?_⟩
          rw [← he'] at hk
          obtain rfl := Option.some.inj hk
          exact hlt
        · have hks := h5 k e2
          refine ⟨⟨d :: pre, post, k, by rw [List.map_cons, e1]; rfl, e2, fun x hx k' hk' => ?_, e4⟩, fun k' hk' => ?_⟩
          · rcases List.mem_cons.1 hx with rfl | hx
            · rw [← he'] at hk'
              obtain rfl := Option.some.inj hk'
              exact hks
            · exact e3 x hx k' hk'
          · have := h5 k' hk'; omega
      · rename_i hge
        obtain ⟨w, s, b, h1, h2, h3⟩ := ih st1 best bs
        refine ⟨w, s, b, h1, h2, h3.imp ?_ ?_⟩
        · rintro ⟨h4, h5⟩
          refine ⟨h4, fun c hcm k hk => ?_⟩
          simp only [List.map_cons, List.mem_cons] at hcm
          rcases hcm with rfl | hcm
          · rw [← he'] at hk
            obtain rfl := Option.some.inj hk
            omega
          · exact h5 c hcm k hk
        · rintro ⟨⟨pre, post, k, e1, e2, e3, e4⟩, h5⟩
          refine ⟨⟨d :: pre, post, k, by rw [List.map_cons, e1]; rfl, e2, fun x hx k' hk' => ?_, e4⟩, h5⟩
          rcases List.mem_cons.1 hx with rfl | hx
          · rw [← he'] at hk'
            obtain rfl := Option.some.inj hk'
            have := h5 k e2
            omega
          · exact e3 x hx k' hk'

theorem Heap.buf_length (h : Heap) (k n : Nat) : (h.buf k n).length = n := by simp [Heap.buf]

/-- The blocks that mode number `x` is tested on. -/
def tested (inp : Buf) (n x : Nat) : Buf := mapBlocks 8 (modesOut (.separate inp) x) inp n

/-- The three buffers after `normalize_blocks_all_modes`. -/
theorem allModes_fresh (h : Heap) {inp : Buf} {n : Nat} (hd : inp.length = n * 8) :
    allModes (.separate inp) [h.buf 0 (n * 8), h.buf 1 (n * 8), h.buf 2 (n * 8)] (n * 8) =
      some ([tested inp n 0, tested inp n 1, tested inp n 2], someNorm inp n) := by
  obtain ⟨outs', h1, h2, h3⟩ := allModes_eq (.separate inp) [h.buf 0 (n * 8), h.buf 1 (n * 8), h.buf 2 (n * 8)]
    inp n rfl rfl (by omega) (by
      intro x dst hx
      match x, hx with
      | 0, hx => obtain rfl := Option.some.inj hx; rw [h.buf_length]
      | 1, hx => obtain rfl := Option.some.inj hx; rw [h.buf_length]
      | 2, hx => obtain rfl := Option.some.inj hx; rw [h.buf_length]
      | x + 3, hx => simp at hx)
  rw [h1]
  have hdrop : ∀ k, (h.buf k (n * 8)).drop (n * 8) = [] := fun k =>
    List.drop_eq_nil_of_le (by rw [h.buf_length])
  match outs', h2, h3 with
  | [a, b, c], _, h3 =>
    have e0 := h3 0 _ rfl
    have e1 := h3 1 _ rfl
    have e2 := h3 2 _ rfl
    rw [hdrop, List.append_nil] at e0 e1 e2
    simp only [List.getElem?_cons_zero, List.getElem?_cons_succ, Option.some.injEq] at e0 e1 e2
    rw [e0, e1, e2]; rfl

theorem tested_length {inp : Buf} {n : Nat} (hd : inp.length = n * 8) (x : Nat) : (tested inp n x).length = n * 8 :=
  mapBlocks_length (modesOut_length _ _) (by omega)

/-- The candidates of the search. -/
theorem candidates_form (m : Machine) (useAll : Bool) (h : Heap) {inp : Buf} {n : Nat} (hd : inp.length = n * 8) :
    ∃ s0 s1 s2 : Buf,
      stdTransform m (tested inp n 0) (h.buf 4 (n * 8)) (n * 8) = some s0 ∧
      stdTransform m (tested inp n 1) (h.buf 5 (n * 8)) (n * 8) = some s1 ∧
      stdTransform m (tested inp n 2) (h.buf 6 (n * 8)) (n * 8) = some s2 ∧
      (candidates useAll [s0, s1, s2]).map Prod.fst = Mode.all.flatMap (fun mode =>
        (testOrder useAll).map fun s => ⟨mode, s.decorr, s.split⟩) ∧
      ∀ c ∈ candidates useAll [s0, s1, s2], ∃ x rest, Mode.all[x]? = some c.1.norm ∧
        c.2 = sect n 0 4 (block 8 (tested inp n x)) ++ rest := by
  have e := fun x k => stdTransform_eq m (tested_length hd x) (show n * 8 ≤ (h.buf k (n * 8)).length by
    rw [h.buf_length])
  refine ⟨_, _, _, e 0 4, e 1 5, e 2 6, ?_, ?_⟩
  · simp [candidates, Mode.all]
    rfl
  · intro c hc
    simp only [candidates, Mode.all, List.zip_cons_cons, List.zip_nil_right, List.flatMap_cons, List.flatMap_nil,
      List.append_nil, List.mem_append, List.mem_map] at hc
    rcases hc with ⟨s, _, rfl⟩ | ⟨s, _, rfl⟩ | ⟨s, _, rfl⟩
    · exact ⟨0, _, rfl, rfl⟩
    · exact ⟨1, _, rfl, rfl⟩
    · exact ⟨2, _, rfl, rfl⟩

end Dlt.Norm.Bc1
