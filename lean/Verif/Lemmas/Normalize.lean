import Verif.Model.Normalize
import Verif.Lemmas.Decode
import Verif.Lemmas.Batch
import Verif.Lemmas.Layout
/-! Normalization: stores, loops over blocks, and what happens to one block. -/

namespace Dlt

/-! ## Stores -/

/-- `b` with `bs` written at offset `off`. -/
def put (b : Buf) (off : Nat) (bs : Buf) : Buf := b.take off ++ bs ++ b.drop (off + bs.length)

theorem st_put {b : Buf} {off : Nat} {bs : Buf} (h : off + bs.length ≤ b.length) :
    st b off bs = some (put b off bs) := by simp [st, h, put]

theorem put_length {b : Buf} {off : Nat} {bs : Buf} (h : off + bs.length ≤ b.length) :
    (put b off bs).length = b.length := by simp [put]; omega

theorem st_st (b : Buf) (off : Nat) (xs ys : Buf) :
    (st b off xs).bind (fun d => st d (off + xs.length) ys) = st b off (xs ++ ys) := by
  by_cases h : off + xs.length ≤ b.length
  · rw [st_put h, Option.bind_some]
    have hl := put_length h
    by_cases h2 : off + xs.length + ys.length ≤ b.length
    · rw [st_put (by omega), st_put (by rw [List.length_append]; omega)]
      congr 1
      unfold put
      have e1 : (b.take off ++ xs).length = off + xs.length := by simp; omega
      rw [List.take_left' e1, List.append_assoc, List.append_assoc, List.append_assoc]
      have : (b.take off ++ (xs ++ b.drop (off + xs.length))).drop (off + xs.length + ys.length) =
          b.drop (off + (xs ++ ys).length) := by
        rw [← List.append_assoc, ← List.drop_drop, List.drop_left' e1, List.drop_drop,
          List.length_append, Nat.add_assoc]
      rw [this]
      simp [List.append_assoc]
    · simp only [st]
      rw [if_neg (by omega), if_neg (by rw [List.length_append]; omega)]
  · simp only [st]
    rw [if_neg h, if_neg (by rw [List.length_append]; omega)]
    rfl

theorem st8_two (b : Buf) (p : Nat) (x0 x1 : Byte) :
    ((st8 b p x0).bind fun d => st8 d (p + 1) x1) = st b p [x0, x1] := st_st b p [x0] [x1]

theorem st8_four (b : Buf) (p : Nat) (x0 x1 x2 x3 : Byte) :
    ((st8 b p x0).bind fun d => (st8 d (p + 1) x1).bind fun d => (st8 d (p + 2) x2).bind fun d =>
      st8 d (p + 3) x3) = st b p [x0, x1, x2, x3] := by
  have h := st_st b p [x0, x1, x2] [x3]
  have h2 := st_st b p [x0, x1] [x2]
  have h1 := st_st b p [x0] [x1]
  simp only [List.length_cons, List.length_nil, Nat.reduceAdd, List.cons_append, List.nil_append] at h h1 h2
  rw [← h, ← h2, ← h1]
  simp only [st8, Option.bind_assoc]

theorem st8_eight (b : Buf) (p : Nat) (x0 x1 x2 x3 x4 x5 x6 x7 : Byte) :
    ((st8 b p x0).bind fun d => (st8 d (p + 1) x1).bind fun d => (st8 d (p + 2) x2).bind fun d =>
      (st8 d (p + 3) x3).bind fun d => (st8 d (p + 4) x4).bind fun d => (st8 d (p + 5) x5).bind fun d =>
      (st8 d (p + 6) x6).bind fun d => st8 d (p + 7) x7) = st b p [x0, x1, x2, x3, x4, x5, x6, x7] := by
  have h := st_st b p [x0, x1, x2, x3] [x4, x5, x6, x7]
  simp only [List.length_cons, List.length_nil, Nat.reduceAdd, List.cons_append, List.nil_append] at h
  rw [← h, ← st8_four b p x0 x1 x2 x3]
  simp only [Option.bind_assoc]
  congr 1; funext d
  congr 1; funext d
  congr 1; funext d
  congr 1; funext d
  exact st8_four d (p + 4) x4 x5 x6 x7

/-- Writing what is there changes nothing. -/
theorem put_self {b : Buf} {off n : Nat} (h : off + n ≤ b.length) : put b off (slice b off n) = b := by
  unfold put
  rw [slice_length_of_le h, slice, List.append_assoc]
  rw [show b.drop (off + n) = (b.drop off).drop n by rw [List.drop_drop], List.take_append_drop,
    List.take_append_drop]

theorem slice_put {b : Buf} {off : Nat} {bs : Buf} (h : off + bs.length ≤ b.length) :
    slice (put b off bs) off bs.length = bs := by
  unfold put
  rw [List.append_assoc, slice_append_right _ _ off 0 _ (by simp; omega),
    slice_append_left _ _ _ _ (by omega), slice_all rfl]

/-- A store right behind the finished part. -/
theorem put_append {A R bs : Buf} {off : Nat} (ho : off = A.length) :
    put (A ++ R) off bs = A ++ bs ++ R.drop bs.length := by
  subst ho
  unfold put
  rw [List.take_left, List.drop_length_add_append]

theorem getElem?_put {b xs : Buf} {p : Nat} (h : p + xs.length ≤ b.length) (i : Nat) :
    (put b p xs)[i]? = if i < p then b[i]? else if i < p + xs.length then xs[i - p]? else b[i]? := by
  unfold put
  have hl : (b.take p).length = p := by simp; omega
  split
  · rename_i hi
    rw [List.append_assoc, List.getElem?_append_left (by omega), List.getElem?_take, if_pos hi]
  · split
    · rename_i hi
      rw [List.append_assoc, List.getElem?_append_right (by omega), List.getElem?_append_left (by omega), hl]
    · rename_i hi
      rw [List.getElem?_append_right (by simp; omega), List.getElem?_drop]
      congr 1
      simp; omega

/-- Stores to disjoint places commute. -/
theorem put_comm {b xs ys : Buf} {p q : Nat} (h1 : p + xs.length ≤ q) (h2 : q + ys.length ≤ b.length) :
    put (put b q ys) p xs = put (put b p xs) q ys := by
  have e1 : (put b q ys).length = b.length := put_length h2
  have e2 : (put b p xs).length = b.length := put_length (by omega)
  apply List.ext_getElem?
  intro i
  rw [getElem?_put (by omega), getElem?_put (by omega), getElem?_put (by omega), getElem?_put (by omega)]
  by_cases h : i < p
  · rw [if_pos h, if_pos (by omega), if_pos (by omega), if_pos h]
  · rw [if_neg h, if_neg h]
    by_cases h' : i < p + xs.length
    · rw [if_pos h', if_pos (show i < q by omega), if_pos h']
    · rw [if_neg h', if_neg h']

/-- Stores one behind the other. -/
theorem put_behind {b xs ys : Buf} {p q : Nat} (hq : q = p + xs.length) (h : q + ys.length ≤ b.length) :
    put (put b p xs) q ys = put b p (xs ++ ys) := by
  subst hq
  have := st_st b p xs ys
  rw [st_put (by omega), Option.bind_some, st_put (by rw [put_length (by omega)]; exact h),
    st_put (by rw [List.length_append]; omega)] at this
  exact Option.some.inj this

/-- A store does not change what is read elsewhere. -/
theorem slice_put_ne {b xs : Buf} {p q m : Nat} (h : p + xs.length ≤ b.length)
    (hq : q + m ≤ p ∨ p + xs.length ≤ q) : slice (put b p xs) q m = slice b q m := by
  unfold slice
  apply List.ext_getElem?
  intro i
  rw [List.getElem?_take, List.getElem?_take]
  split
  · rw [List.getElem?_drop, List.getElem?_drop, getElem?_put h]
    split
    · rfl
    · rw [if_neg (by omega)]
  · rfl

theorem put_nil {b : Buf} {p : Nat} : put b p [] = b := by simp [put]

namespace Norm
open Spec

/-! ## Loops over blocks -/

/-- The blocks of `data`, each replaced by its image. -/
def mapBlocks (B : Nat) (F : Buf → Buf) (data : Buf) (n : Nat) : Buf :=
  (List.range n).flatMap fun i => F (block B data i)

theorem mapBlocks_length {B n : Nat} {F : Buf → Buf} {data : Buf}
    (hF : ∀ b : Buf, b.length = B → (F b).length = B) (hd : n * B ≤ data.length) :
    (mapBlocks B F data n).length = n * B := by
  apply flatMap_range_length
  intro i hi
  have : (i + 1) * B ≤ n * B := Nat.mul_le_mul_right _ hi
  rw [Nat.succ_mul] at this
  exact hF _ (slice_length_of_le (by omega))

theorem mapBlocks_succ (B n : Nat) (F : Buf → Buf) (data : Buf) :
    mapBlocks B F data (n + 1) = mapBlocks B F data n ++ F (block B data n) := by
  simp [mapBlocks, List.range_succ]

theorem block_mapBlocks {B n i : Nat} {F : Buf → Buf} {data tail : Buf}
    (hF : ∀ b : Buf, b.length = B → (F b).length = B) (hd : n * B ≤ data.length) (hi : i < n) :
    block B (mapBlocks B F data n ++ tail) i = F (block B data i) := by
  have hl := mapBlocks_length hF hd
  have : (i + 1) * B ≤ n * B := Nat.mul_le_mul_right _ hi
  rw [Nat.succ_mul] at this
  unfold block
  rw [slice_append_left _ _ _ _ (by omega)]
  have := flatMap_range_slice n B i 1 (fun i => F (block B data i)) (fun j hj => by
    have : (j + 1) * B ≤ n * B := Nat.mul_le_mul_right _ hj
    rw [Nat.succ_mul] at this
    exact hF _ (slice_length_of_le (by omega))) (by omega)
  rw [Nat.one_mul] at this
  rw [mapBlocks, this]
  simp [block]

theorem mapBlocks_congr {B n : Nat} {F G : Buf → Buf} {data data' : Buf}
    (h : ∀ i, i < n → F (block B data i) = G (block B data' i)) :
    mapBlocks B F data n = mapBlocks B G data' n := flatMap_congr_range h

theorem mapBlocks_id {B n : Nat} {data : Buf} (hd : n * B ≤ data.length) :
    mapBlocks B id data n = data.take (n * B) := by
  have h := flatMap_slices (inp := data) (base := 0) (n := n) (w := B) (by omega)
  simpa [mapBlocks, block, slice] using h

/-- The region `mapBlocks F data i ++ out.drop (i * B)` after the next block. -/
theorem put_next {B i : Nat} {F : Buf → Buf} {data out : Buf}
    (hF : ∀ b : Buf, b.length = B → (F b).length = B) (hd : (i + 1) * B ≤ data.length) :
    put (mapBlocks B F data i ++ out.drop (i * B)) (i * B) (F (block B data i)) =
      mapBlocks B F data (i + 1) ++ out.drop ((i + 1) * B) := by
  have h1 : (i + 1) * B = i * B + B := Nat.succ_mul _ _
  have hl : (mapBlocks B F data i).length = i * B := mapBlocks_length hF (by omega)
  have hb : (F (block B data i)).length = B := hF _ (slice_length_of_le (by omega))
  rw [put_append hl.symm, hb, mapBlocks_succ, List.drop_drop, h1]

/-- A loop that replaces each block by its image, into another region or in place. -/
theorem blockLoop {B n : Nat} (hB : 0 < B) (src : Option Buf) (out0 : Buf) (F : Buf → Buf)
    (hF : ∀ b : Buf, b.length = B → (F b).length = B) (hin : n * B ≤ (src.getD out0).length)
    (hout : n * B ≤ out0.length) {cond : Nat × Nat × Buf → Bool}
    {body : Nat × Nat × Buf → Option (Nat × Nat × Buf)}
    (hcond : ∀ p s, cond (p, s) = decide (p < n * B))
    (hbody : ∀ p out, p + B ≤ (src.getD out).length → p + B ≤ out.length →
      body (p, p, out) = (st out p (F (slice (src.getD out) p B))).map fun o => (p + B, p + B, o)) :
    whileM (n * B + 1) cond body (0, 0, out0) =
      some (n * B, n * B, mapBlocks B F (src.getD out0) n ++ out0.drop (n * B)) := by
  suffices h : Ok (whileM (n * B + 1) cond body (0, 0, out0)) (fun s => s =
      (n * B, n * B, mapBlocks B F (src.getD out0) n ++ out0.drop (n * B))) by
    obtain ⟨a, ha, rfl⟩ := h; exact ha
  apply Ok.whileM (fun i s => s = (i * B, i * B, mapBlocks B F (src.getD out0) i ++ out0.drop (i * B))) n
  · have : n * 1 ≤ n * B := Nat.mul_le_mul_left _ hB
    omega
  · simp [mapBlocks]
  · rintro i _ hi rfl
    have h1 : (i + 1) * B ≤ n * B := Nat.mul_le_mul_right _ hi
    have h2 : (i + 1) * B = i * B + B := Nat.succ_mul _ _
    have hl : (mapBlocks B F (src.getD out0) i).length = i * B := mapBlocks_length hF (by omega)
    have hlen : (mapBlocks B F (src.getD out0) i ++ out0.drop (i * B)).length = out0.length := by
      rw [List.length_append, hl, List.length_drop]; omega
    refine ⟨by rw [hcond]; exact decide_eq_true (by omega), ?_⟩
    have hs : slice (src.getD (mapBlocks B F (src.getD out0) i ++ out0.drop (i * B))) (i * B) B =
        block B (src.getD out0) i := by
      cases src with
      | some inp => rfl
      | none =>
        show slice (mapBlocks B F out0 i ++ out0.drop (i * B)) (i * B) B = slice out0 (i * B) B
        have hl' : (mapBlocks B F out0 i).length = i * B := hl
        rw [slice_append_right _ _ _ 0 _ (by omega)]
        simp [slice]
    have hsl : i * B + B ≤ (src.getD (mapBlocks B F (src.getD out0) i ++ out0.drop (i * B))).length := by
      cases src with
      | some inp => simp only [Option.getD_some] at hin ⊢; omega
      | none => simp only [Option.getD_none] at hlen ⊢; omega
    have hb : (F (block B (src.getD out0) i)).length = B := hF _ (slice_length_of_le (by omega))
    rw [hbody _ _ hsl (by omega), hs, st_put (by omega), put_next hF (by omega)]
    exact ⟨_, rfl, by rw [h2]⟩
  · rintro _ rfl
    exact ⟨by rw [hcond]; exact decide_eq_false (by omega), rfl⟩

/-! ## Several outputs -/

/-- What ends up in output `x` when the handler writes `G x aliased block`: outputs behind the one
that is the input see the block already written. -/
def Input.effective (i : Input) (G : Nat → Bool → Buf → Buf) (b : Buf) (x : Nat) : Buf :=
  match i with
  | .separate _ => G x false b
  | .output k => if x = k then G k true b else if x < k then G x false b else G x false (G k true b)

theorem eachOutput_eq (i : Input) {f : Nat → Option Buf → Buf → Option Buf} {p B : Nat}
    {G : Nat → Bool → Buf → Buf} {b : Buf} {outs : List Buf} {N : Nat} (hN : N ≤ outs.length)
    (hfit : ∀ (x : Nat) (dst : Buf), outs[x]? = some dst → p + B ≤ dst.length)
    (hreg : ∃ r, i.region outs = some r ∧ slice r p B = b ∧ p + B ≤ r.length)
    (hf : ∀ x src dst, x < N → p + B ≤ (src.getD dst).length → p + B ≤ dst.length →
      f x src dst = st dst p (G x src.isNone (slice (src.getD dst) p B)))
    (hG : ∀ x a (c : Buf), c.length = B → (G x a c).length = B) :
    ∃ outs', eachOutput i f N outs = some outs' ∧ outs'.length = outs.length ∧
      ∀ (x : Nat) (dst : Buf), outs[x]? = some dst →
        outs'[x]? = some (if x < N then put dst p (i.effective G b x) else dst) := by
  induction N with
  | zero => exact ⟨outs, rfl, rfl, fun x dst h => by simp [h]⟩
  | succ N ih =>
    obtain ⟨outs', h1, h2, h3⟩ := ih (by omega) (fun x src dst hx => hf x src dst (by omega))
    obtain ⟨d, hd⟩ : ∃ d, outs[N]? = some d := ⟨_, List.getElem?_eq_getElem (by omega)⟩
    have hdN : outs'[N]? = some d := by
      have := h3 N d hd
      simpa using this
    obtain ⟨r, hr, hrb, hrl⟩ := hreg
    have hbl : b.length = B := by rw [← hrb]; exact slice_length_of_le hrl
    have hdl := hfit N d hd
    -- the source of the next write
    have hsrc : ∃ src, i.source outs' N = some src ∧ p + B ≤ (src.getD d).length ∧
        G N src.isNone (slice (src.getD d) p B) = i.effective G b N := by
      cases i with
      | separate inp =>
        simp only [Input.region, Option.some.injEq] at hr
        subst hr
        exact ⟨some inp, rfl, hrl, by simp [Input.effective, hrb]⟩
      | output k =>
        simp only [Input.region] at hr
        by_cases hk : k = N
        · subst hk
          rw [hd] at hr
          obtain rfl := Option.some.inj hr
          exact ⟨none, by simp [Input.source], hrl, by simp [Input.effective, hrb]⟩
        · have hk' := h3 k r hr
          refine ⟨some _, by simp only [Input.source, if_neg hk, hk', Option.map_some]; rfl, ?_, ?_⟩
          · simp only [Option.getD_some]
            split
            · rw [put_length (by
                simp only [Input.effective, if_true]; rw [hG _ _ _ hbl]; exact hrl)]
              exact hrl
            · exact hrl
          · simp only [Option.getD_some, Option.isNone_some, Input.effective, if_neg (Ne.symm hk)]
            by_cases hlt : k < N
            · rw [if_pos hlt, if_neg (show ¬ N < k by omega)]
              simp only [↓reduceIte]
              have hl := hG k true b hbl
              congr 1
              have := slice_put (b := r) (off := p) (bs := G k true b) (by omega)
              rwa [hl] at this
            · rw [if_neg hlt, if_pos (show N < k by omega), hrb]
    obtain ⟨src, hs1, hs2, hs3⟩ := hsrc
    have hel : (i.effective G b N).length = B := by
      rw [← hs3]; exact hG _ _ _ (slice_length_of_le hs2)
    refine ⟨outs'.set N (put d p (i.effective G b N)), ?_, by simp [h2], ?_⟩
    · simp only [eachOutput, h1, hs1, hdN, Option.bind_eq_bind, Option.bind_some,
        hf N src d (by omega) hs2 hdl, hs3, Option.pure_def]
      rw [st_put (by omega)]
      rfl
    · intro x dst hx
      rw [List.getElem?_set]
      by_cases hxN : N = x
      · subst hxN
        rw [hd] at hx
        obtain rfl := Option.some.inj hx
        simp [h2, show N < outs.length by omega]
      · rw [if_neg hxN, h3 x dst hx]
        by_cases hlt : x < N
        · rw [if_pos hlt, if_pos (by omega)]
        · rw [if_neg hlt, if_neg (by omega)]

/-- The state of the output buffers after `i` blocks. -/
def AllInv (B : Nat) (W : Nat → Buf → Buf) (data : Buf) (outs0 : List Buf) (i : Nat) (outs : List Buf) : Prop :=
  outs.length = outs0.length ∧ ∀ (x : Nat) (dst : Buf), outs0[x]? = some dst →
    outs[x]? = some (mapBlocks B (W x) data i ++ dst.drop (i * B))

theorem AllInv.start (B : Nat) (W : Nat → Buf → Buf) (data : Buf) (outs0 : List Buf) :
    AllInv B W data outs0 0 outs0 := ⟨rfl, fun x dst h => by simp [mapBlocks, h]⟩

theorem AllInv.fit {B i : Nat} {W : Nat → Buf → Buf} {data : Buf} {outs0 outs : List Buf}
    (h : AllInv B W data outs0 i outs) (hW : ∀ x (b : Buf), b.length = B → (W x b).length = B)
    (hd : i * B ≤ data.length) {L : Nat} (hi : i * B ≤ L) (ho : ∀ (x : Nat) (dst : Buf), outs0[x]? = some dst → L ≤ dst.length) :
    ∀ (x : Nat) (dst : Buf), outs[x]? = some dst → L ≤ dst.length := by
  intro x dst hx
  obtain ⟨d, hd0⟩ : ∃ d, outs0[x]? = some d := by
    have : x < outs.length := (List.getElem?_eq_some_iff.1 hx).1
    exact ⟨_, List.getElem?_eq_getElem (by rw [← h.1]; exact this)⟩
  have := h.2 x d hd0
  rw [hx] at this
  obtain rfl := Option.some.inj this
  have := ho x d hd0
  rw [List.length_append, mapBlocks_length (hW x) hd, List.length_drop]
  omega

theorem AllInv.region {B i : Nat} {W : Nat → Buf → Buf} {data : Buf} {outs0 outs : List Buf} {inp : Input}
    (h : AllInv B W data outs0 i outs) (hW : ∀ x (b : Buf), b.length = B → (W x b).length = B)
    (hd : (i + 1) * B ≤ data.length) (hr : inp.region outs0 = some data) :
    ∃ r, inp.region outs = some r ∧ slice r (i * B) B = block B data i ∧ i * B + B ≤ r.length := by
  have h1 : (i + 1) * B = i * B + B := Nat.succ_mul _ _
  cases inp with
  | separate b =>
    obtain rfl := Option.some.inj hr
    exact ⟨_, rfl, rfl, by omega⟩
  | output k =>
    simp only [Input.region] at hr ⊢
    have hl := mapBlocks_length (hW k) (show i * B ≤ data.length by omega)
    refine ⟨_, h.2 k data hr, ?_, ?_⟩
    · rw [slice_append_right _ _ _ 0 _ (by omega)]
      simp [slice, block]
    · rw [List.length_append, hl, List.length_drop]; omega

/-- One block of `normalize_blocks_all_modes`. -/
theorem AllInv.step {B i N : Nat} {W : Nat → Buf → Buf} {data : Buf} {outs0 outs : List Buf} {inp : Input}
    (h : AllInv B W data outs0 i outs) (hW : ∀ x (b : Buf), b.length = B → (W x b).length = B)
    (hd : (i + 1) * B ≤ data.length) (hr : inp.region outs0 = some data) (hN : outs0.length = N)
    (ho : ∀ (x : Nat) (dst : Buf), outs0[x]? = some dst → (i + 1) * B ≤ dst.length)
    {f : Nat → Option Buf → Buf → Option Buf} {G : Nat → Bool → Buf → Buf}
    (hf : ∀ x src dst, x < N → i * B + B ≤ (src.getD dst).length → i * B + B ≤ dst.length →
      f x src dst = st dst (i * B) (G x src.isNone (slice (src.getD dst) (i * B) B)))
    (hG : ∀ x a (c : Buf), c.length = B → (G x a c).length = B)
    (hE : ∀ x, x < N → inp.effective G (block B data i) x = W x (block B data i)) :
    ∃ outs', eachOutput inp f N outs = some outs' ∧ AllInv B W data outs0 (i + 1) outs' := by
  have h1 : (i + 1) * B = i * B + B := Nat.succ_mul _ _
  obtain ⟨outs', e1, e2, e3⟩ := eachOutput_eq inp (N := N) (by rw [h.1, hN])
    (h.fit hW (by omega) (L := i * B + B) (Nat.le_add_right _ _) (by rw [← h1]; exact ho))
    (h.region hW hd hr) hf hG
  refine ⟨outs', e1, by rw [e2, h.1], fun x dst hx => ?_⟩
  have hxN : x < N := by rw [← hN]; exact (List.getElem?_eq_some_iff.1 hx).1
  rw [e3 x _ (h.2 x dst hx), if_pos hxN, hE x hxN, put_next (hW x) hd]

end Norm
end Dlt
