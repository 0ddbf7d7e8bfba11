import Verif.Model.Color565
import Mathlib.Data.Fintype.Card
import Mathlib.Data.Fintype.EquivFin
/-! Arithmetic of the colour transforms, read through `BitVec.toNat`. -/

namespace Dlt.Color565

theorem and31 (x : U16) : (x &&& 0x1F#16).toNat = x.toNat % 32 := by
  rw [BitVec.toNat_and]; exact Nat.and_two_pow_sub_one_eq_mod x.toNat 5

theorem and1 (x : U16) : (x &&& 0x1#16).toNat = x.toNat % 2 := by
  rw [BitVec.toNat_and]; exact Nat.and_two_pow_sub_one_eq_mod x.toNat 1

theorem shr (x : U16) (k : Nat) : (x >>> k).toNat = x.toNat / 2 ^ k := by
  simp [Nat.shiftRight_eq_div_pow]

theorem or_disj (hi lo : U16) (k : Nat) (h1 : hi.toNat * 2 ^ k < 65536) (h2 : lo.toNat < 2 ^ k) :
    ((hi <<< k) ||| lo).toNat = hi.toNat * 2 ^ k + lo.toNat := by
  have e : (hi <<< k).toNat = hi.toNat * 2 ^ k := by
    rw [BitVec.toNat_shiftLeft, Nat.shiftLeft_eq, Nat.mod_eq_of_lt h1]
  rw [BitVec.toNat_or, e, ← Nat.shiftLeft_eq, Nat.shiftLeft_add_eq_or_of_lt h2]

/-- Fields packed at bits 11, 6, 5, 0. -/
theorem pack1 (a b c d : U16) (ha : a.toNat < 32) (hb : b.toNat < 32) (hc : c.toNat < 2)
    (hd : d.toNat < 32) :
    ((a <<< 11) ||| (b <<< 6) ||| (c <<< 5) ||| d).toNat =
      a.toNat * 2048 + b.toNat * 64 + c.toNat * 32 + d.toNat := by
  rw [BitVec.or_assoc, BitVec.or_assoc]
  have h1 := or_disj c d 5 (by omega) (by omega)
  generalize (c <<< 5 ||| d) = w at *
  have h2 := or_disj b w 6 (by omega) (by omega)
  generalize (b <<< 6 ||| w) = w' at *
  have h3 := or_disj a w' 11 (by omega) (by omega)
  rw [h3, h2, h1]; omega

/-- Fields packed at bits 15, 10, 5, 0. -/
theorem pack2 (a b c d : U16) (ha : a.toNat < 2) (hb : b.toNat < 32) (hc : c.toNat < 32)
    (hd : d.toNat < 32) :
    ((a <<< 15) ||| (b <<< 10) ||| (c <<< 5) ||| d).toNat =
      a.toNat * 32768 + b.toNat * 1024 + c.toNat * 32 + d.toNat := by
  rw [BitVec.or_assoc, BitVec.or_assoc]
  have h1 := or_disj c d 5 (by omega) (by omega)
  generalize (c <<< 5 ||| d) = w at *
  have h2 := or_disj b w 10 (by omega) (by omega)
  generalize (b <<< 10 ||| w) = w' at *
  have h3 := or_disj a w' 15 (by omega) (by omega)
  rw [h3, h2, h1]; omega

/-- Fields packed at bits 11, 6, 1, 0. -/
theorem pack3 (a b c d : U16) (ha : a.toNat < 32) (hb : b.toNat < 32) (hc : c.toNat < 32)
    (hd : d.toNat < 2) :
    ((a <<< 11) ||| (b <<< 6) ||| (c <<< 1) ||| d).toNat =
      a.toNat * 2048 + b.toNat * 64 + c.toNat * 2 + d.toNat := by
  rw [BitVec.or_assoc, BitVec.or_assoc]
  have h1 := or_disj c d 1 (by omega) (by omega)
  generalize (c <<< 1 ||| d) = w at *
  have h2 := or_disj b w 6 (by omega) (by omega)
  generalize (b <<< 6 ||| w) = w' at *
  have h3 := or_disj a w' 11 (by omega) (by omega)
  rw [h3, h2, h1]; omega

/-! Natural-number readings of the lifting steps. -/

def coN (r b : Nat) : Nat := (r + 32 - b) % 32
def tN (r b : Nat) : Nat := (b + coN r b / 2) % 32
def cgN (r g b : Nat) : Nat := (g + 32 - tN r b) % 32
def yN (r g b : Nat) : Nat := (tN r b + cgN r g b / 2) % 32

theorem forward_toNat (r g b : U16) (hr : r.toNat < 32) (hg : g.toNat < 32) (hb : b.toNat < 32) :
    (forward r g b).1.toNat = yN r.toNat g.toNat b.toNat ∧
    (forward r g b).2.1.toNat = coN r.toNat b.toNat ∧
    (forward r g b).2.2.toNat = cgN r.toNat g.toNat b.toNat := by
  have hco : ((r - b) &&& 0x1F#16).toNat = coN r.toNat b.toNat := by
    rw [and31, BitVec.toNat_sub]; unfold coN; omega
  have hco' : coN r.toNat b.toNat < 32 := by unfold coN; omega
  have ht : ((b + (((r - b) &&& 0x1F#16) >>> 1)) &&& 0x1F#16).toNat = tN r.toNat b.toNat := by
    rw [and31, BitVec.toNat_add, shr, hco]; unfold tN; omega
  have ht' : tN r.toNat b.toNat < 32 := by unfold tN; omega
  have hcg : ((g - ((b + (((r - b) &&& 0x1F#16) >>> 1)) &&& 0x1F#16)) &&& 0x1F#16).toNat =
      cgN r.toNat g.toNat b.toNat := by
    rw [and31, BitVec.toNat_sub, ht]; unfold cgN; omega
  have hcg' : cgN r.toNat g.toNat b.toNat < 32 := by unfold cgN; omega
  refine ⟨?_, hco, hcg⟩
  simp only [forward]
  rw [and31, BitVec.toNat_add, shr, ht, hcg]
  unfold yN; omega

theorem backward_toNat (y co cg : U16) (r g b : Nat) (hr : r < 32) (hg : g < 32) (hb : b < 32)
    (hy : y.toNat = yN r g b) (hco : co.toNat = coN r b) (hcg : cg.toNat = cgN r g b) :
    (backward y co cg).1.toNat = r ∧ (backward y co cg).2.1.toNat = g ∧
    (backward y co cg).2.2.toNat = b := by
  have hco' : coN r b < 32 := by unfold coN; omega
  have ht' : tN r b < 32 := by unfold tN; omega
  have hcg' : cgN r g b < 32 := by unfold cgN; omega
  have ht : ((y - (cg >>> 1)) &&& 0x1F#16).toNat = tN r b := by
    rw [and31, BitVec.toNat_sub, shr, hy, hcg]; unfold yN; omega
  have hgg : ((cg + ((y - (cg >>> 1)) &&& 0x1F#16)) &&& 0x1F#16).toNat = g := by
    rw [and31, BitVec.toNat_add, ht, hcg]; unfold cgN; omega
  have hbb : ((((y - (cg >>> 1)) &&& 0x1F#16) - (co >>> 1)) &&& 0x1F#16).toNat = b := by
    rw [and31, BitVec.toNat_sub, ht, shr, hco]; unfold tN; omega
  refine ⟨?_, hgg, hbb⟩
  simp only [backward]
  rw [and31, BitVec.toNat_add, hbb, hco]; unfold coN; omega

theorem coN_lt (r b : Nat) : coN r b < 32 := by unfold coN; omega
theorem cgN_lt (r g b : Nat) : cgN r g b < 32 := by unfold cgN; omega
theorem yN_lt (r g b : Nat) : yN r g b < 32 := by unfold yN; omega

/-- Closed forms: what each variant computes, as a number. -/
theorem decorr1_toNat (v : U16) :
    (decorr1 v).toNat =
      yN (v.toNat / 2048) (v.toNat / 64 % 32) (v.toNat % 32) * 2048 +
      coN (v.toNat / 2048) (v.toNat % 32) * 64 +
      v.toNat / 32 % 2 * 32 +
      cgN (v.toNat / 2048) (v.toNat / 64 % 32) (v.toNat % 32) := by
  have hv := v.isLt
  have hr : ((v >>> 11) &&& 0x1F#16).toNat = v.toNat / 2048 := by rw [and31, shr]; omega
  have hg : ((v >>> 6) &&& 0x1F#16).toNat = v.toNat / 64 % 32 := by rw [and31, shr]
  have hl : ((v >>> 5) &&& 0x1#16).toNat = v.toNat / 32 % 2 := by rw [and1, shr]
  have hb : (v &&& 0x1F#16).toNat = v.toNat % 32 := and31 v
  have ⟨e1, e2, e3⟩ := forward_toNat ((v >>> 11) &&& 0x1F#16) ((v >>> 6) &&& 0x1F#16)
    (v &&& 0x1F#16) (by omega) (by omega) (by omega)
  simp only [decorr1]
  have := coN_lt (v.toNat / 2048) (v.toNat % 32)
  have := cgN_lt (v.toNat / 2048) (v.toNat / 64 % 32) (v.toNat % 32)
  have := yN_lt (v.toNat / 2048) (v.toNat / 64 % 32) (v.toNat % 32)
  rw [hr, hg, hb] at e1 e3; rw [hr, hb] at e2
  generalize forward _ _ _ = p at e1 e2 e3 ⊢
  obtain ⟨y, co, cg⟩ := p
  simp only at e1 e2 e3 ⊢
  rw [pack1] <;> omega

theorem decorr2_toNat (v : U16) :
    (decorr2 v).toNat =
      v.toNat / 32 % 2 * 32768 +
      yN (v.toNat / 2048) (v.toNat / 64 % 32) (v.toNat % 32) * 1024 +
      coN (v.toNat / 2048) (v.toNat % 32) * 32 +
      cgN (v.toNat / 2048) (v.toNat / 64 % 32) (v.toNat % 32) := by
  have hv := v.isLt
  have hr : ((v >>> 11) &&& 0x1F#16).toNat = v.toNat / 2048 := by rw [and31, shr]; omega
  have hg : ((v >>> 6) &&& 0x1F#16).toNat = v.toNat / 64 % 32 := by rw [and31, shr]
  have hl : ((v >>> 5) &&& 0x1#16).toNat = v.toNat / 32 % 2 := by rw [and1, shr]
  have hb : (v &&& 0x1F#16).toNat = v.toNat % 32 := and31 v
  have ⟨e1, e2, e3⟩ := forward_toNat ((v >>> 11) &&& 0x1F#16) ((v >>> 6) &&& 0x1F#16)
    (v &&& 0x1F#16) (by omega) (by omega) (by omega)
  simp only [decorr2]
  have := coN_lt (v.toNat / 2048) (v.toNat % 32)
  have := cgN_lt (v.toNat / 2048) (v.toNat / 64 % 32) (v.toNat % 32)
  have := yN_lt (v.toNat / 2048) (v.toNat / 64 % 32) (v.toNat % 32)
  rw [hr, hg, hb] at e1 e3; rw [hr, hb] at e2
  generalize forward _ _ _ = p at e1 e2 e3 ⊢
  obtain ⟨y, co, cg⟩ := p
  simp only at e1 e2 e3 ⊢
  rw [pack2] <;> omega

theorem decorr3_toNat (v : U16) :
    (decorr3 v).toNat =
      yN (v.toNat / 2048) (v.toNat / 64 % 32) (v.toNat % 32) * 2048 +
      coN (v.toNat / 2048) (v.toNat % 32) * 64 +
      cgN (v.toNat / 2048) (v.toNat / 64 % 32) (v.toNat % 32) * 2 +
      v.toNat / 32 % 2 := by
  have hv := v.isLt
  have hr : ((v >>> 11) &&& 0x1F#16).toNat = v.toNat / 2048 := by rw [and31, shr]; omega
  have hg : ((v >>> 6) &&& 0x1F#16).toNat = v.toNat / 64 % 32 := by rw [and31, shr]
  have hl : ((v >>> 5) &&& 0x1#16).toNat = v.toNat / 32 % 2 := by rw [and1, shr]
  have hb : (v &&& 0x1F#16).toNat = v.toNat % 32 := and31 v
  have ⟨e1, e2, e3⟩ := forward_toNat ((v >>> 11) &&& 0x1F#16) ((v >>> 6) &&& 0x1F#16)
    (v &&& 0x1F#16) (by omega) (by omega) (by omega)
  simp only [decorr3]
  have := coN_lt (v.toNat / 2048) (v.toNat % 32)
  have := cgN_lt (v.toNat / 2048) (v.toNat / 64 % 32) (v.toNat % 32)
  have := yN_lt (v.toNat / 2048) (v.toNat / 64 % 32) (v.toNat % 32)
  rw [hr, hg, hb] at e1 e3; rw [hr, hb] at e2
  generalize forward _ _ _ = p at e1 e2 e3 ⊢
  obtain ⟨y, co, cg⟩ := p
  simp only at e1 e2 e3 ⊢
  rw [pack3] <;> omega

theorem recorr1_decorr1 (v : U16) : recorr1 (decorr1 v) = v := by
  have hv := v.isLt
  have h := decorr1_toNat v
  have := coN_lt (v.toNat / 2048) (v.toNat % 32)
  have := cgN_lt (v.toNat / 2048) (v.toNat / 64 % 32) (v.toNat % 32)
  have := yN_lt (v.toNat / 2048) (v.toNat / 64 % 32) (v.toNat % 32)
  generalize decorr1 v = w at *
  have hy := and31 (w >>> 11)
  have hco := and31 (w >>> 6)
  have hl := and1 (w >>> 5)
  have hcg := and31 w
  rw [shr] at hy hco hl
  have ⟨e1, e2, e3⟩ := backward_toNat ((w >>> 11) &&& 0x1F#16) ((w >>> 6) &&& 0x1F#16)
    (w &&& 0x1F#16) (v.toNat / 2048) (v.toNat / 64 % 32) (v.toNat % 32)
    (by omega) (by omega) (by omega) (by omega) (by omega) (by omega)
  apply BitVec.eq_of_toNat_eq
  simp only [recorr1]
  generalize backward _ _ _ = p at e1 e2 e3 ⊢
  obtain ⟨r, g, b⟩ := p
  simp only at e1 e2 e3 ⊢
  rw [pack1] <;> omega

theorem recorr2_decorr2 (v : U16) : recorr2 (decorr2 v) = v := by
  have hv := v.isLt
  have h := decorr2_toNat v
  have := coN_lt (v.toNat / 2048) (v.toNat % 32)
  have := cgN_lt (v.toNat / 2048) (v.toNat / 64 % 32) (v.toNat % 32)
  have := yN_lt (v.toNat / 2048) (v.toNat / 64 % 32) (v.toNat % 32)
  generalize decorr2 v = w at *
  have hl := shr w 15
  have hy := and31 (w >>> 10)
  have hco := and31 (w >>> 5)
  have hcg := and31 w
  rw [shr] at hy hco
  have ⟨e1, e2, e3⟩ := backward_toNat ((w >>> 10) &&& 0x1F#16) ((w >>> 5) &&& 0x1F#16)
    (w &&& 0x1F#16) (v.toNat / 2048) (v.toNat / 64 % 32) (v.toNat % 32)
    (by omega) (by omega) (by omega) (by omega) (by omega) (by omega)
  apply BitVec.eq_of_toNat_eq
  simp only [recorr2]
  generalize backward _ _ _ = p at e1 e2 e3 ⊢
  obtain ⟨r, g, b⟩ := p
  simp only at e1 e2 e3 ⊢
  rw [pack1] <;> omega

theorem recorr3_decorr3 (v : U16) : recorr3 (decorr3 v) = v := by
  have hv := v.isLt
  have h := decorr3_toNat v
  have := coN_lt (v.toNat / 2048) (v.toNat % 32)
  have := cgN_lt (v.toNat / 2048) (v.toNat / 64 % 32) (v.toNat % 32)
  have := yN_lt (v.toNat / 2048) (v.toNat / 64 % 32) (v.toNat % 32)
  generalize decorr3 v = w at *
  have hy := and31 (w >>> 11)
  have hco := and31 (w >>> 6)
  have hcg := and31 (w >>> 1)
  have hl := and1 w
  rw [shr] at hy hco hcg
  have ⟨e1, e2, e3⟩ := backward_toNat ((w >>> 11) &&& 0x1F#16) ((w >>> 6) &&& 0x1F#16)
    ((w >>> 1) &&& 0x1F#16) (v.toNat / 2048) (v.toNat / 64 % 32) (v.toNat % 32)
    (by omega) (by omega) (by omega) (by omega) (by omega) (by omega)
  apply BitVec.eq_of_toNat_eq
  simp only [recorr3]
  generalize backward _ _ _ = p at e1 e2 e3 ⊢
  obtain ⟨r, g, b⟩ := p
  simp only at e1 e2 e3 ⊢
  rw [pack1] <;> omega

theorem recorr_decorr (k : Variant) (v : U16) : recorr k (decorr k v) = v := by
  cases k
  · exact recorr1_decorr1 v
  · exact recorr2_decorr2 v
  · exact recorr3_decorr3 v
  · rfl


theorem finite_u16 : Finite U16 :=
  Finite.of_injective BitVec.toFin (fun a b h => by
    apply BitVec.eq_of_toNat_eq
    have := congrArg Fin.val h
    simpa using this)

theorem decorr_recorr (k : Variant) (v : U16) : decorr k (recorr k v) = v := by
  have := finite_u16
  have inj : Function.Injective (decorr k) := fun a b h => by
    rw [← recorr_decorr k a, h, recorr_decorr]
  obtain ⟨u, rfl⟩ := Finite.surjective_of_injective inj v
  rw [recorr_decorr]

end Dlt.Color565
