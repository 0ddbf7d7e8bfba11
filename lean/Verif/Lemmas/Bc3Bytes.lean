import Verif.Model.Bc3Simd
import Verif.Lemmas.Bc3Generic
/-!
Stores that write more bytes than the code means to keep, and the bytes of packed words: what the
BC3 vector kernels need beyond the tactics of the other formats.
-/

namespace Dlt

/-- A store whose first `g` bytes are right; the `L` bytes it covers held nothing yet. -/
theorem Agree.stG {P : Nat → Prop} {T out : Buf} {a m o g L off : Nat} {bs D : Buf} {Q : Buf → Prop}
    (h : Agree P T out) (hD : slice T a m = D) (hL : off + L ≤ T.length)
    (hoff : off = a + o) (hlen : bs.length = L) (hg : g ≤ L) (hl : o + g ≤ m)
    (hdis : ∀ x, P x → x < off ∨ off + L ≤ x) (he : slice D o g = bs.take g)
    (k : ∀ out', Agree (fun x => P x ∨ (off ≤ x ∧ x < off + g)) T out' → Q out') :
    Ok (Dlt.st out off bs) Q := by
  subst hlen
  have hle : off + bs.length ≤ out.length := by rw [h.1]; exact hL
  refine ⟨out.take off ++ bs ++ out.drop (off + bs.length), by simp [Dlt.st, hle], k _ ?_⟩
  have hs : slice T off g = bs.take g := by
    rw [hoff, ← slice_slice _ _ m _ _ hl, hD, he]
  constructor
  · simp only [List.length_append, List.length_take, List.length_drop]; have := h.1; omega
  · intro x hx
    rcases hx with hx | hx
    · rcases hdis x hx with h1 | h1
      · rw [List.append_assoc, List.getElem?_append_left (by simp; omega), List.getElem?_take, if_pos h1]
        exact h.2 x hx
      · rw [List.getElem?_append_right (by simp; omega), List.getElem?_drop]
        simp only [List.length_append, List.length_take]
        rw [show off + bs.length + (x - (min off out.length + bs.length)) = x by omega]
        exact h.2 x hx
    · rw [List.append_assoc, List.getElem?_append_right (by simp; omega),
        List.getElem?_append_left (by simp; omega)]
      have := congrArg (fun l => l[x - off]?) hs
      simp only [slice_getElem?, List.getElem?_take] at this
      rw [if_pos (by omega), if_pos (by omega)] at this
      simp only [List.length_take]
      rw [show min off out.length = off by omega, ← this]
      congr 1; omega

theorem rd_at {b : Buf} {off base o : Nat} (h : off = base + o) (x : Nat) :
    rd b off x = rd b base (o + x) := by rw [h, rd_add]

theorem Ok.ld8At {b : Buf} {off : Nat} {Q : Byte → Prop} (base o : Nat) (hoff : off = base + o)
    (h : off + 1 ≤ b.length) (k : Q (rd b base (o + 0))) : Ok (Dlt.ld8 b off) Q := by
  apply Ok.ld8 h; rwa [rd_at hoff]

theorem Ok.ld16At {e : Endian} {b : Buf} {off : Nat} {Q : U16 → Prop} (base o : Nat) (hoff : off = base + o)
    (h : off + 2 ≤ b.length) (k : Q (of16 e [rd b base (o + 0), rd b base (o + 1)])) :
    Ok (Dlt.ld16 e b off) Q := by
  apply Ok.ld16 h; simpa only [rd_at hoff] using k

theorem Ok.ld32At {e : Endian} {b : Buf} {off : Nat} {Q : U32 → Prop} (base o : Nat) (hoff : off = base + o)
    (h : off + 4 ≤ b.length)
    (k : Q (of32 e [rd b base (o + 0), rd b base (o + 1), rd b base (o + 2), rd b base (o + 3)])) :
    Ok (Dlt.ld32 e b off) Q := by
  apply Ok.ld32 h; simpa only [rd_at hoff] using k

theorem Ok.ld64At {e : Endian} {b : Buf} {off : Nat} {Q : U64 → Prop} (base o : Nat) (hoff : off = base + o)
    (h : off + 8 ≤ b.length)
    (k : Q (of64 e [rd b base (o + 0), rd b base (o + 1), rd b base (o + 2), rd b base (o + 3),
      rd b base (o + 4), rd b base (o + 5), rd b base (o + 6), rd b base (o + 7)])) :
    Ok (Dlt.ld64 e b off) Q := by
  apply Ok.ld64 h; simpa only [rd_at hoff] using k

theorem Ok.gather32 {b : Buf} {ip : Nat} (offs : List Nat) {Q : Buf → Prop}
    (h : ∀ o ∈ offs, ip + o + 4 ≤ b.length)
    (k : Q (offs.flatMap (fun o => mk 4 (fun x => rd b ip (o + x))))) :
    Ok (Simd.gather32 b ip offs) Q := by
  induction offs generalizing Q with
  | nil => exact Ok.pure k
  | cons o offs ih =>
    simp only [Simd.gather32]
    apply Ok.bind
    refine Ok.ldAt ip o rfl (h o (by simp)) ?_
    apply Ok.bind
    refine ih (fun o' h' => h o' (by simp [h'])) ?_
    exact Ok.pure k

/-! ## Bytes of words -/

theorem extract_shift {m : Nat} (w : BitVec m) (s k j : Nat) (h : j + 8 ≤ k) :
    ((w >>> s).setWidth k).extractLsb' j 8 = w.extractLsb' (s + j) 8 := by
  apply BitVec.eq_of_getElem_eq
  intro i hi
  simp [BitVec.getElem_extractLsb', show j + i < k by omega, Nat.add_assoc]

theorem extract_shift' {m : Nat} (w : BitVec m) (s j : Nat) :
    (w >>> s).extractLsb' j 8 = w.extractLsb' (s + j) 8 := by
  apply BitVec.eq_of_getElem_eq
  intro i hi
  simp [BitVec.getElem_extractLsb', Nat.add_assoc]

/-- The bytes of a word are its eight-bit fields. -/
theorem bytes64 (a b c d e f g h : Byte) (i : Nat) (hi : i < 8) :
    (of64 .little [a, b, c, d, e, f, g, h]).extractLsb' (8 * i) 8 = [a, b, c, d, e, f, g, h].getD i 0 := by
  have := ext64 a b c d e f g h
  match i, hi with
  | 0, _ => exact this.1
  | 1, _ => exact this.2.1
  | 2, _ => exact this.2.2.1
  | 3, _ => exact this.2.2.2.1
  | 4, _ => exact this.2.2.2.2.1
  | 5, _ => exact this.2.2.2.2.2.1
  | 6, _ => exact this.2.2.2.2.2.2.1
  | 7, _ => exact this.2.2.2.2.2.2.2

theorem bytes32 (a b c d : Byte) (i : Nat) (hi : i < 4) :
    (of32 .little [a, b, c, d]).extractLsb' (8 * i) 8 = [a, b, c, d].getD i 0 := by
  have := ext32 a b c d
  match i, hi with
  | 0, _ => exact this.1
  | 1, _ => exact this.2.1
  | 2, _ => exact this.2.2.1
  | 3, _ => exact this.2.2.2

theorem bytes16 (a b : Byte) (i : Nat) (hi : i < 2) :
    (of16 .little [a, b]).extractLsb' (8 * i) 8 = [a, b].getD i 0 := by
  have := ext16 a b
  match i, hi with
  | 0, _ => exact this.1
  | 1, _ => exact this.2

theorem to16_shift64 (a b c d e f g h : Byte) (i : Nat) (hi : i + 2 ≤ 8) :
    to16 .little ((of64 .little [a, b, c, d, e, f, g, h] >>> (8 * i)).setWidth 16) =
      [[a, b, c, d, e, f, g, h].getD i 0, [a, b, c, d, e, f, g, h].getD (i + 1) 0] := by
  simp only [to16]
  rw [extract_shift _ _ _ _ (by omega), extract_shift _ _ _ _ (by omega), show 8 * i + 0 = 8 * i by omega,
    show 8 * i + 8 = 8 * (i + 1) by omega, bytes64 _ _ _ _ _ _ _ _ _ (by omega),
    bytes64 _ _ _ _ _ _ _ _ _ (by omega)]

theorem to32_shift64 (a b c d e f g h : Byte) (i : Nat) (hi : i + 4 ≤ 8) :
    to32 .little ((of64 .little [a, b, c, d, e, f, g, h] >>> (8 * i)).setWidth 32) =
      [[a, b, c, d, e, f, g, h].getD i 0, [a, b, c, d, e, f, g, h].getD (i + 1) 0,
       [a, b, c, d, e, f, g, h].getD (i + 2) 0, [a, b, c, d, e, f, g, h].getD (i + 3) 0] := by
  simp only [to32]
  rw [extract_shift _ _ _ _ (by omega), extract_shift _ _ _ _ (by omega), extract_shift _ _ _ _ (by omega),
    extract_shift _ _ _ _ (by omega), show 8 * i + 0 = 8 * i by omega,
    show 8 * i + 8 = 8 * (i + 1) by omega, show 8 * i + 16 = 8 * (i + 2) by omega,
    show 8 * i + 24 = 8 * (i + 3) by omega, bytes64 _ _ _ _ _ _ _ _ _ (by omega),
    bytes64 _ _ _ _ _ _ _ _ _ (by omega), bytes64 _ _ _ _ _ _ _ _ _ (by omega),
    bytes64 _ _ _ _ _ _ _ _ _ (by omega)]

theorem to16_shift32 (a b c d : Byte) (i : Nat) (hi : i + 2 ≤ 4) :
    to16 .little ((of32 .little [a, b, c, d] >>> (8 * i)).setWidth 16) =
      [[a, b, c, d].getD i 0, [a, b, c, d].getD (i + 1) 0] := by
  simp only [to16]
  rw [extract_shift _ _ _ _ (by omega), extract_shift _ _ _ _ (by omega), show 8 * i + 0 = 8 * i by omega,
    show 8 * i + 8 = 8 * (i + 1) by omega, bytes32 _ _ _ _ _ (by omega), bytes32 _ _ _ _ _ (by omega)]

theorem shift32_byte (a b c d : Byte) (i : Nat) (hi : i < 4) :
    (of32 .little [a, b, c, d] >>> (8 * i)).setWidth 8 = [a, b, c, d].getD i 0 := by
  rw [← bytes32 a b c d i hi]
  apply BitVec.eq_of_getElem_eq
  intro j hj
  simp [BitVec.getElem_extractLsb']

/-- Shifting out the first two bytes leaves the other six in front. -/
theorem to64_shift16 (a b c d e f g h : Byte) :
    (to64 .little (of64 .little [a, b, c, d, e, f, g, h] >>> 16)).take 6 = [c, d, e, f, g, h] := by
  simp only [to64, List.take_succ_cons, List.take_zero, extract_shift', Nat.reduceAdd]
  rw [bytes64 a b c d e f g h 2 (by omega), bytes64 a b c d e f g h 3 (by omega),
    bytes64 a b c d e f g h 4 (by omega), bytes64 a b c d e f g h 5 (by omega),
    bytes64 a b c d e f g h 6 (by omega), bytes64 a b c d e f g h 7 (by omega)]
  rfl

theorem zx_byte_in {k : Nat} (x : BitVec k) (s j : Nat) (h1 : s ≤ j) (h2 : j + 8 ≤ 64) :
    (x.zeroExtend 64 <<< s).extractLsb' j 8 = x.extractLsb' (j - s) 8 := by
  apply BitVec.eq_of_getElem_eq
  intro i hi
  simp [BitVec.getElem_extractLsb', show j + i < 64 by omega,
        show ¬ j + i < s by omega,
        show j - s + i = j + i - s by omega]

theorem zx_byte_out {k : Nat} (x : BitVec k) (s j : Nat) (h : s + k ≤ j ∨ j + 8 ≤ s) :
    (x.zeroExtend 64 <<< s).extractLsb' j 8 = 0#8 := by
  apply BitVec.eq_of_getElem_eq
  intro i hi
  simp [BitVec.getElem_extractLsb']
  intro h1 h2
  rw [BitVec.getLsbD_of_ge _ _ (by omega)]; simp

theorem or_byte (x y : U64) (j : Nat) :
    (x ||| y).extractLsb' j 8 = x.extractLsb' j 8 ||| y.extractLsb' j 8 := by
  apply BitVec.eq_of_getElem_eq
  intro i hi
  simp [BitVec.getElem_extractLsb']

theorem zx_eq {k : Nat} (x : BitVec k) : x.zeroExtend 64 = x.zeroExtend 64 <<< 0 := by simp

/-- Four words side by side. -/
theorem to64_pack16 (a b c d e f g h : Byte) :
    to64 .little ((of16 .little [a, b]).zeroExtend 64 ||| ((of16 .little [c, d]).zeroExtend 64 <<< 16)
      ||| ((of16 .little [e, f]).zeroExtend 64 <<< 32) ||| ((of16 .little [g, h]).zeroExtend 64 <<< 48)) =
      [a, b, c, d, e, f, g, h] := by
  rw [zx_eq (of16 .little [a, b])]
  simp only [to64, or_byte]
  repeat' (first
    | rw [zx_byte_out _ _ _ (by omega)]
    | rw [zx_byte_in _ _ _ (by omega) (by omega)])
  simp only [Nat.reduceSub, BitVec.or_zero, BitVec.zero_or]
  simp only [(ext16 _ _).1, (ext16 _ _).2, of16]

/-- Eight bytes side by side. -/
theorem to64_pack8 (a b c d e f g h : Byte) :
    to64 .little (a.zeroExtend 64 ||| (b.zeroExtend 64 <<< 8) ||| (c.zeroExtend 64 <<< 16)
      ||| (d.zeroExtend 64 <<< 24) ||| (e.zeroExtend 64 <<< 32) ||| (f.zeroExtend 64 <<< 40)
      ||| (g.zeroExtend 64 <<< 48) ||| (h.zeroExtend 64 <<< 56)) =
      [a, b, c, d, e, f, g, h] := by
  rw [zx_eq a]
  simp only [to64, or_byte]
  repeat' (first
    | rw [zx_byte_out _ _ _ (by omega)]
    | rw [zx_byte_in _ _ _ (by omega) (by omega)])
  simp [BitVec.extractLsb'_eq_self]

/-- A word and a double word side by side. -/
theorem to64_pack48 (a b c d e f : Byte) :
    to64 .little (((of32 .little [c, d, e, f]).zeroExtend 64 <<< 16) ||| (of16 .little [a, b]).zeroExtend 64) =
      [a, b, c, d, e, f, 0, 0] := by
  rw [zx_eq (of16 .little [a, b])]
  simp only [to64, or_byte]
  repeat' (first
    | rw [zx_byte_out _ _ _ (by omega)]
    | rw [zx_byte_in _ _ _ (by omega) (by omega)])
  simp only [Nat.reduceSub, BitVec.or_zero, BitVec.zero_or]
  obtain ⟨h1, h2, h3, h4⟩ := ext32 c d e f
  simp only [(ext16 _ _).1, (ext16 _ _).2, of16]
  simp only [List.cons.injEq, true_and, and_true]
  exact ⟨h1, h2, h3, h4, rfl, rfl⟩

namespace Bc3

theorem writeAlphaEndpointsU64_ok {inp out : Buf} {ip op o0 o1 o2 o3 : Nat} {Q : Buf → Prop}
    (h0 : ip + o0 + 2 ≤ inp.length) (h1 : ip + o1 + 2 ≤ inp.length) (h2 : ip + o2 + 2 ≤ inp.length)
    (h3 : ip + o3 + 2 ≤ inp.length)
    (k : Ok (Dlt.st out op [rd inp ip (o0 + 0), rd inp ip (o0 + 1), rd inp ip (o1 + 0), rd inp ip (o1 + 1),
      rd inp ip (o2 + 0), rd inp ip (o2 + 1), rd inp ip (o3 + 0), rd inp ip (o3 + 1)]) Q) :
    Ok (writeAlphaEndpointsU64 inp ip out op o0 o1 o2 o3) Q := by
  unfold writeAlphaEndpointsU64
  apply Ok.bind; refine Ok.ld16At ip o0 rfl h0 ?_
  apply Ok.bind; refine Ok.ld16At ip o1 rfl h1 ?_
  apply Ok.bind; refine Ok.ld16At ip o2 rfl h2 ?_
  apply Ok.bind; refine Ok.ld16At ip o3 rfl h3 ?_
  rw [st64, to64_pack16]
  exact k

theorem writeAlphaBytesU64_ok {inp out : Buf} {ip op o0 o1 o2 o3 o4 o5 o6 o7 : Nat} {Q : Buf → Prop}
    (h0 : ip + o0 + 1 ≤ inp.length) (h1 : ip + o1 + 1 ≤ inp.length) (h2 : ip + o2 + 1 ≤ inp.length)
    (h3 : ip + o3 + 1 ≤ inp.length) (h4 : ip + o4 + 1 ≤ inp.length) (h5 : ip + o5 + 1 ≤ inp.length)
    (h6 : ip + o6 + 1 ≤ inp.length) (h7 : ip + o7 + 1 ≤ inp.length)
    (k : Ok (Dlt.st out op [rd inp ip (o0 + 0), rd inp ip (o1 + 0), rd inp ip (o2 + 0), rd inp ip (o3 + 0),
      rd inp ip (o4 + 0), rd inp ip (o5 + 0), rd inp ip (o6 + 0), rd inp ip (o7 + 0)]) Q) :
    Ok (writeAlphaBytesU64 inp ip out op o0 o1 o2 o3 o4 o5 o6 o7) Q := by
  unfold writeAlphaBytesU64
  apply Ok.bind; refine Ok.ld8At ip o0 rfl h0 ?_
  apply Ok.bind; refine Ok.ld8At ip o1 rfl h1 ?_
  apply Ok.bind; refine Ok.ld8At ip o2 rfl h2 ?_
  apply Ok.bind; refine Ok.ld8At ip o3 rfl h3 ?_
  apply Ok.bind; refine Ok.ld8At ip o4 rfl h4 ?_
  apply Ok.bind; refine Ok.ld8At ip o5 rfl h5 ?_
  apply Ok.bind; refine Ok.ld8At ip o6 rfl h6 ?_
  apply Ok.bind; refine Ok.ld8At ip o7 rfl h7 ?_
  rw [st64, to64_pack8]
  exact k

/-- The 48 alpha index bytes of the eight blocks at `ip`. -/
def bits48 (inp : Buf) (ip : Nat) : Buf :=
  (List.range 8).flatMap (fun j => mk 6 (fun x => rd inp ip (16 * j + 2 + x)))

section
variable {P : Nat → Prop} {T inp : Buf} {ip bp : Nat} {Q : Buf → Prop}

/-- What holds when the alpha index bytes before `bp + w` have been written. -/
def Front (P : Nat → Prop) (T : Buf) (bp w : Nat) : Buf → Prop :=
  Agree (fun x => P x ∨ (bp ≤ x ∧ x < bp + w)) T

theorem front_st {out bs : Buf} {w g L : Nat} (hD : slice T bp 48 = bits48 inp ip)
    (hm : bp + 48 ≤ T.length) (hdis : ∀ x, P x → x < bp ∨ bp + 48 ≤ x)
    (h : Front P T bp w out) (hlen : bs.length = L) (hg : g ≤ L) (hL : w + L ≤ 48)
    (he : slice (bits48 inp ip) w g = bs.take g) (k : ∀ out', Front P T bp (w + g) out' → Q out') :
    Ok (Dlt.st out (bp + w) bs) Q := by
  refine Agree.stG h hD (L := L) (g := g) (by omega) rfl hlen hg (by omega) ?_ he ?_
  · intro x hx
    rcases hx with hx | hx
    · have := hdis x hx; omega
    · omega
  · intro out' ho
    refine k out' (Agree.mono ho ?_)
    intro x _ hx
    rcases hx with hx | hx
    · exact .inl (.inl hx)
    · by_cases hw : x < bp + w
      · exact .inl (.inr ⟨hx.1, hw⟩)
      · exact .inr (by omega)

end

/-- All 48 bytes are written and nothing else is lost, whichever words are used. -/
theorem writeAlphaBits_ok (x64 : Bool) {P : Nat → Prop} {T inp out : Buf} {ip bp : Nat} {Q : Buf → Prop}
    (hi : ip + 128 ≤ inp.length) (hD : slice T bp 48 = bits48 inp ip)
    (hm : bp + 48 ≤ T.length) (hdis : ∀ x, P x → x < bp ∨ bp + 48 ≤ x)
    (h : Agree P T out)
    (k : ∀ out', Agree (fun x => P x ∨ (bp ≤ x ∧ x < bp + 48)) T out' → Q out') :
    Ok (writeAlphaBits x64 inp ip out bp) Q := by
  have hF : Front P T bp 0 out := Agree.mono h (by
    intro x _ hx
    rcases hx with hx | hx
    · exact hx
    · omega)
  have s16 : ∀ {out : Buf} {Q : Buf → Prop} (w io : Nat), Front P T bp w out → w + 2 ≤ 48 →
      io + 2 ≤ 128 →
      slice (bits48 inp ip) w 2 = [rd inp ip (io + 0), rd inp ip (io + 1)] →
      (∀ out', Front P T bp (w + 2) out' → Q out') →
      Ok (writeAlphaBitU16 inp ip out bp w io) Q := by
    intro out Q w io hF hw hio he k
    unfold writeAlphaBitU16
    apply Ok.bind; refine Ok.ld16At ip io rfl (by omega) ?_
    exact front_st hD hm hdis hF (to16_length _ _) (Nat.le_refl _) hw
      (by rw [to16_of16]; exact he) k
  have s32 : ∀ {out : Buf} {Q : Buf → Prop} (w io : Nat), Front P T bp w out → w + 4 ≤ 48 →
      io + 4 ≤ 128 →
      slice (bits48 inp ip) w 4 =
        [rd inp ip (io + 0), rd inp ip (io + 1), rd inp ip (io + 2), rd inp ip (io + 3)] →
      (∀ out', Front P T bp (w + 4) out' → Q out') →
      Ok (writeAlphaBitU32 inp ip out bp w io) Q := by
    intro out Q w io hF hw hio he k
    unfold writeAlphaBitU32
    apply Ok.bind; refine Ok.ld32At ip io rfl (by omega) ?_
    exact front_st hD hm hdis hF (to32_length _ _) (Nat.le_refl _) hw
      (by rw [to32_of32]; exact he) k
  have s64 : ∀ {out : Buf} {Q : Buf → Prop} (w io : Nat), Front P T bp w out → w + 8 ≤ 48 →
      io + 6 ≤ 128 →
      slice (bits48 inp ip) w 6 =
        [rd inp ip (io + 0), rd inp ip (io + 1), rd inp ip (io + (2 + 0)), rd inp ip (io + (2 + 1)),
          rd inp ip (io + (2 + 2)), rd inp ip (io + (2 + 3))] →
      (∀ out', Front P T bp (w + 6) out' → Q out') →
      Ok (writeAlphaBitsU64 inp ip out bp w io) Q := by
    intro out Q w io hF hw hio he k
    unfold writeAlphaBitsU64
    apply Ok.bind; refine Ok.ld16At ip io rfl (by omega) ?_
    apply Ok.bind; refine Ok.ld32At ip (io + 2) (by omega) (by omega) ?_
    exact front_st hD hm hdis hF (to64_length _ _) (by omega) hw
      (by rw [to64_pack48]; simpa only [List.take_succ_cons, List.take_zero, Nat.add_assoc] using he) k
  unfold writeAlphaBits
  split
  · apply Ok.bind; refine s64 0 2 hF (by omega) (by omega) (by krfl) ?_; clear hF; intro out hF
    apply Ok.bind; refine s64 6 18 hF (by omega) (by omega) (by krfl) ?_; clear hF; intro out hF
    apply Ok.bind; refine s64 12 34 hF (by omega) (by omega) (by krfl) ?_; clear hF; intro out hF
    apply Ok.bind; refine s64 18 50 hF (by omega) (by omega) (by krfl) ?_; clear hF; intro out hF
    apply Ok.bind; refine s64 24 66 hF (by omega) (by omega) (by krfl) ?_; clear hF; intro out hF
    apply Ok.bind; refine s64 30 82 hF (by omega) (by omega) (by krfl) ?_; clear hF; intro out hF
    apply Ok.bind; refine s64 36 98 hF (by omega) (by omega) (by krfl) ?_; clear hF; intro out hF
    apply Ok.bind; refine s16 42 114 hF (by omega) (by omega) (by krfl) ?_; clear hF; intro out hF
    refine s32 44 116 hF (by omega) (by omega) (by krfl) ?_; clear hF; intro out hF
    exact k _ hF
  · apply Ok.bind; refine s16 0 2 hF (by omega) (by omega) (by krfl) ?_; clear hF; intro out hF
    apply Ok.bind; refine s32 2 4 hF (by omega) (by omega) (by krfl) ?_; clear hF; intro out hF
    apply Ok.bind; refine s16 6 18 hF (by omega) (by omega) (by krfl) ?_; clear hF; intro out hF
    apply Ok.bind; refine s32 8 20 hF (by omega) (by omega) (by krfl) ?_; clear hF; intro out hF
    apply Ok.bind; refine s16 12 34 hF (by omega) (by omega) (by krfl) ?_; clear hF; intro out hF
    apply Ok.bind; refine s32 14 36 hF (by omega) (by omega) (by krfl) ?_; clear hF; intro out hF
    apply Ok.bind; refine s16 18 50 hF (by omega) (by omega) (by krfl) ?_; clear hF; intro out hF
    apply Ok.bind; refine s32 20 52 hF (by omega) (by omega) (by krfl) ?_; clear hF; intro out hF
    apply Ok.bind; refine s16 24 66 hF (by omega) (by omega) (by krfl) ?_; clear hF; intro out hF
    apply Ok.bind; refine s32 26 68 hF (by omega) (by omega) (by krfl) ?_; clear hF; intro out hF
    apply Ok.bind; refine s16 30 82 hF (by omega) (by omega) (by krfl) ?_; clear hF; intro out hF
    apply Ok.bind; refine s32 32 84 hF (by omega) (by omega) (by krfl) ?_; clear hF; intro out hF
    apply Ok.bind; refine s16 36 98 hF (by omega) (by omega) (by krfl) ?_; clear hF; intro out hF
    apply Ok.bind; refine s32 38 100 hF (by omega) (by omega) (by krfl) ?_; clear hF; intro out hF
    apply Ok.bind; refine s16 42 114 hF (by omega) (by omega) (by krfl) ?_; clear hF; intro out hF
    refine s32 44 116 hF (by omega) (by omega) (by krfl) ?_; clear hF; intro out hF
    exact k _ hF

end Bc3

end Dlt
